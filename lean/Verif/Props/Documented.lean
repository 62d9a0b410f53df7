import Verif.Props.Read
import Verif.Props.Table

/-! # Property C81: the examples of the README

`README.md:24-64` gives calls of `read` with a comment saying what each returns.  The defaults of `ReadArgs` are those of
the signature (`common.py:106-129`). -/

namespace Rxls

/-- Three columns `row_id`, `client`, `x` under a header of one row; only the last row has both of the first two. -/
def exReadme : List Cell :=
  [tx 0 0 ['i'], tx 0 1 ['c'], tx 0 2 ['x'], nm 1 0 1, nm 1 2 5, nm 2 1 2, nm 2 2 6, nm 3 0 3, nm 3 1 4, nm 3 2 7]

/-- Finding, C81 fails: the README says that `row_filters=['^row_id$', '^client$']` keeps the rows with a value in both
columns; the default strategy keeps rows with a value in one of them. -/
theorem C81_two_filters_mean_or :
    (exRead { header := .rows 1, filters := .patterns [['i'], ['c']] } exReadme).map (·.arrays) =
      .ok [.arr ⟨.i8, [some (.i8 1), none, some (.i8 3)]⟩, .arr ⟨.i8, [none, some (.i8 2), some (.i8 4)]⟩,
        .arr ⟨.i8, [some (.i8 5), some (.i8 6), some (.i8 7)]⟩] ∧
    (exRead { header := .rows 1, filters := .patterns [['i'], ['c']], strategy := .and } exReadme).map (·.arrays) =
      .ok [.arr ⟨.i8, [some (.i8 3)]⟩, .arr ⟨.i8, [some (.i8 4)]⟩, .arr ⟨.i8, [some (.i8 7)]⟩] := by
  decide +kernel

/-- C81, partial, when the README is right: the default keeps the documented rows iff every row has a value in all the
filter columns or in none. -/
theorem C81_two_filters_partial (n : Nat) (bs : List (List Bool)) (hne : bs ≠ []) (hl : ∀ b ∈ bs, b.length = n) :
    ∃ m, combineFilters ({} : ReadArgs DType).strategy bs = .ok m ∧
      ((∀ i < n, m.getD i false = bs.all fun b => b.getD i false) ↔
        ∀ i < n, (∃ b ∈ bs, b.getD i false = true) → ∀ b ∈ bs, b.getD i false = true) := by
  obtain ⟨m, e, _, h⟩ := C56_or n bs hne hl
  refine ⟨m, e, ?_⟩
  constructor
  · intro hall i hi hex
    have h1 := hall i hi
    rw [h i hi] at h1
    have h2 : (bs.any fun b => b.getD i false) = true := List.any_eq_true.mpr hex
    rw [h2] at h1
    exact List.all_eq_true.mp h1.symm
  · intro hall i hi
    rw [h i hi]
    by_cases hex : ∃ b ∈ bs, b.getD i false = true
    · rw [List.any_eq_true.mpr hex, List.all_eq_true.mpr (hall i hi hex)]
    · have h1 : (bs.any fun b => b.getD i false) = false := by
        rw [Bool.eq_false_iff]
        intro hc
        exact hex (List.any_eq_true.mp hc)
      have h2 : (bs.all fun b => b.getD i false) = false := by
        obtain ⟨b, bs', rfl⟩ := List.exists_cons_of_ne_nil hne
        rw [List.all_eq_false]
        exact ⟨b, by simp, fun hb => hex ⟨b, by simp, hb⟩⟩
      rw [h1, h2]

/-- C81, one filter: the rows with a value in that column, whatever the strategy. -/
theorem C81_one_filter (s : Strategy) (b : List Bool) : combineFilters s [b] = .ok b := rfl

/-- Finding: the README says that `header=0` names the columns `Unnamed: 0`, `Unnamed: 1`, …; no column of any table read
with `header=0` is called so. -/
theorem C81_no_header_names {A D : Type} (env : Env) (lib : Lib A D) (search : Str → Option (Str → Bool))
    (reMatch : Str → Str → Py Bool) (args : ReadArgs D) (cols : Cols) (hl : args.header = .rows 0)
    (t : Table A) (h : readColumns env lib search reMatch args cols = .ok t) (i : Nat) :
    "Unnamed: ".toList ++ pyStr i ∉ t.names := by
  obtain ⟨h1, h2⟩ := C60_positional env lib search reMatch args cols hl t h
  intro hm
  obtain ⟨j, hj, e⟩ := List.mem_iff_getElem.mp hm
  have h3 := h2 j (by omega)
  rw [List.getElem?_eq_getElem hj, e] at h3
  have h4 : ("Unnamed: ".toList ++ pyStr i)[7]? = ("Unnamed. ".toList ++ pyStr j)[7]? :=
    congrArg (fun l => l[7]?) (Option.some.inj h3)
  rw [List.getElem?_append_left (by decide), List.getElem?_append_left (by decide)] at h4
  exact absurd h4 (by decide)

/-- C81, `header=['a', 'b', 'c']`: a table with these names, or an exception when there are not three columns. -/
theorem C81_given_names {A D : Type} (env : Env) (lib : Lib A D) (search : Str → Option (Str → Bool))
    (reMatch : Str → Str → Py Bool) (args : ReadArgs D) (cols : Cols) (hl : args.header = .names [['a'], ['b'], ['c']]) :
    (∀ t : Table A, readColumns env lib search reMatch args cols = .ok t → t.names = [['a'], ['b'], ['c']]) ∧
    (cols.length ≠ 3 → ∃ e, readColumns env lib search reMatch args cols = .error e) := by
  refine ⟨fun t ht => (C60_explicit env lib search reMatch args cols _ hl t ht).1, fun hn => ?_⟩
  cases hr : readColumns env lib search reMatch args cols with
  | error e => exact ⟨e, rfl⟩
  | ok t => exact absurd (C60_explicit env lib search reMatch args cols _ hl t hr).2.symm (by simpa using hn)

example : (exRead {} exReadme).map (·.names) =
      .ok [unnamedDot ++ ['0'], unnamedDot ++ ['1'], unnamedDot ++ ['2']] ∧
    (exRead { header := .names [['a'], ['b'], ['c']] } exReadme).map (·.names) = .ok [['a'], ['b'], ['c']] ∧
    exRead { header := .names [['a'], ['b']] } exReadme = .error .valueError ∧
    (exRead { header := .rows 1, filters := .pattern ['i'] } exReadme).map (·.arrays) =
      .ok [.arr ⟨.i8, [some (.i8 1), some (.i8 3)]⟩, .arr ⟨.i8, [none, some (.i8 4)]⟩,
        .arr ⟨.i8, [some (.i8 5), some (.i8 7)]⟩] := by
  decide +kernel

end Rxls
