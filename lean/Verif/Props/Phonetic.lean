import Verif.Spec.Phonetic
import Verif.Props.EndToEndXlsx

/-! # Property C108: phonetic guides are not part of a text -/

namespace Rxls

theorem guide_texts (a : List (Str × Str)) (gs : List (List (Str × Str) × Str)) :
    (⟨a, gs.flatMap guideXml⟩ : Si).texts = gs.map (·.2) := by
  induction gs with
  | nil => rfl
  | cons g gs ih =>
    simp only [Si.texts] at ih
    simp only [Si.texts, List.flatMap_cons, List.filterMap_append, ih]
    rfl

/-- C108, what the code does: the guides are further candidates, taken up where the text itself gives nothing. -/
theorem guided_entry (isNull : Str → Bool) (x : Guided) :
    x.si.entry isNull =
      (x.bare.entry isNull).or ((x.guides.map fun g => pyStrip g.2).find? fun t => t ≠ [] && !isNull t) := by
  unfold Si.entry
  have : x.si.texts = x.bare.texts ++ x.guides.map (·.2) := by
    have := guide_texts x.attrs x.guides
    simp only [Si.texts] at this
    simp only [Si.texts, Guided.si, Guided.bare, List.filterMap_append, this]
  rw [this, List.map_append, List.find?_append, List.map_map]
  rfl

/-- C108, exact: the guides of a string make no difference if and only if the string itself gives an entry, or all of its
guides are blank or null. -/
theorem C108_exact (isNull : Str → Bool) (x : Guided) :
    x.si.entry isNull = x.bare.entry isNull ↔
      x.bare.entry isNull ≠ none ∨ ∀ g ∈ x.guides, pyStrip g.2 = [] ∨ isNull (pyStrip g.2) = true := by
  rw [guided_entry]
  cases h : x.bare.entry isNull with
  | some s => simp
  | none =>
    simp only [Option.none_or, ne_eq, not_true_eq_false, false_or, List.find?_eq_none, List.mem_map, forall_exists_index,
      and_imp, forall_apply_eq_imp_iff₂, Bool.and_eq_true, decide_eq_true_eq, Bool.not_eq_true', not_and,
      Bool.not_eq_false]
    constructor
    · intro h g hg
      by_cases h0 : pyStrip g.2 = []
      · exact .inl h0
      · exact .inr (h g hg h0)
    · intro h g hg h0
      exact (h g hg).resolve_left h0

/-- C108, partial: a file whose shared strings have guides gives the same table as without them.  Missing: strings that
are blank or null themselves (`C108_guide_finding`). -/
theorem C108_guides_partial {A D : Type} (env : Env) (lib : Lib A D) (search : Str → Option (Str → Bool))
    (reMatch : Str → Str → Py Bool) (toInt : Str → Option Int) (isNull : Str → Bool) (o : ConcatOpts) (ia : IterArgs)
    (args : ReadArgs D) (f : XlsxFile) (pre post : List Xml) (items : List Guided) (hpre : ∀ e ∈ pre, e.noSi)
    (hpost : ∀ e ∈ post, e.noSi) (hitems : ∀ x ∈ items, ∀ e ∈ x.base, e.noSi)
    (hb : ∀ x ∈ items, x.guides ≠ [] → x.bare.entry isNull ≠ none) :
    readXlsx env lib search reMatch toInt isNull o ia args
        { f with shared := some ⟨pre ++ (items.map Guided.si).flatMap Si.events ++ post, false⟩ } =
      readXlsx env lib search reMatch toInt isNull o ia args
        { f with shared := some ⟨pre ++ (items.map Guided.bare).flatMap Si.events ++ post, false⟩ } := by
  have hsi : ∀ x ∈ items.map Guided.si, ∀ e ∈ x.body, e.noSi := by
    intro y hy e he
    obtain ⟨x, hx, rfl⟩ := List.mem_map.1 hy
    rcases List.mem_append.1 he with he | he
    · exact hitems x hx e he
    · obtain ⟨g, -, hg⟩ := List.mem_flatMap.1 he
      simp only [guideXml, List.mem_cons, List.not_mem_nil, or_false] at hg
      rcases hg with rfl | rfl | rfl | rfl | rfl <;> simp [Xml.noSi, tagSi]
  have hbare : ∀ x ∈ items.map Guided.bare, ∀ e ∈ x.body, e.noSi := by
    intro y hy e he
    obtain ⟨x, hx, rfl⟩ := List.mem_map.1 hy
    exact hitems x hx e he
  obtain ⟨e1, n1, h1, h2, h3⟩ := C46_xlsx_aligned isNull pre post _ hpre hpost hsi
  obtain ⟨e1', n1', h1', h2', h3'⟩ := C46_xlsx_aligned isNull pre post _ hpre hpost hbare
  have he : e1 = e1' := by
    rw [h2, h2', List.map_map, List.map_map]
    apply List.map_congr_left
    intro x hx
    refine (C108_exact isNull x).2 ?_
    by_cases hg : x.guides = []
    · exact .inr (by simp [hg])
    · exact .inl (hb x hx hg)
  unfold readXlsx XlsxFile.formats XlsxFile.strings
  simp only [openPart, h1, h1', he]

/-- The example file with guides: for the second string, and for a text given. -/
def exGuided (s : Str) : List Guided :=
  [⟨[], (exSi [s]).body, [([(['s', 'b'], ['0']), (['e', 'b'], ['1'])], ['k', 'a'])]⟩,
    ⟨[], (exSi [['y', 'z', ' ']]).body, [([], ['n', 'a'])]⟩]

@[inherit_doc exGuided] def exGuidedRead (l : List Si) : Py (List Fetched) :=
  let doc : XmlDoc := ⟨.start ['t'] [] :: (l.flatMap Si.events ++ [.close ['t']]), false⟩
  (readXlsx demoEnv exLib (fun _ => none) (fun _ _ => .ok false) exInt (fun s => s == ['-']) exConcat {} {}
    { exXlsxFile with shared := some doc }).map (·.arrays)

example : exGuidedRead ((exGuided ['x']).map Guided.si) = exReadX {} ∧
    exGuidedRead ((exGuided ['x']).map Guided.bare) = exReadX {} := by
  decide +kernel

/-- C108, finding: where the text of a cell is null or blank, the reading given for it becomes the value. -/
theorem C108_guide_finding :
    (exGuidedRead ((exGuided ['-']).map Guided.si)).map (·[2]?) =
      .ok (some (.arr ⟨.utf8, [some (.str ['q']), none, none, some (.str ['k', 'a'])]⟩)) ∧
    (exGuidedRead ((exGuided [' ']).map Guided.si)).map (·[2]?) =
      .ok (some (.arr ⟨.utf8, [some (.str ['q']), none, none, some (.str ['k', 'a'])]⟩)) ∧
    (exGuidedRead ((exGuided ['-']).map Guided.bare)).map (·[2]?) =
      .ok (some (.arr ⟨.utf8, [some (.str ['q']), none, none, none]⟩)) := by
  decide +kernel

end Rxls
