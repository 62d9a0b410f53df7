import Verif.Lemmas.Values
import Verif.Lemmas.XlsxParts
import Verif.Props.Xlsx
import Verif.Props.XlsxParts
import Verif.Spec.XGrid

/-! # Grids of XLSX cells and the items read from them -/

namespace Rxls

theorem find_more {l : List (Str × Str)} {k : Str} (h : ∀ p ∈ l, p.1 ≠ k) : (l.find? fun p => p.1 = k) = none := by
  rw [List.find?_eq_none]
  intro p hp
  simpa using h p hp

theorem attrs_ref (c : TCell) :
    attrGet c.attrs attR = some ((colName c.col ++ c.digits).map fun x => Char.ofNat x.toNat) := by
  simp [attrGet, TCell.attrs]

theorem attrs_type (c : TCell) (hm : ∀ p ∈ c.more, p.1 ≠ attR ∧ p.1 ≠ attT ∧ p.1 ≠ attS) :
    attrGet c.attrs attT = match c.content with | .shared _ => some ['s'] | .plain _ => none := by
  have h0 := find_more (k := attT) fun p hp => (hm p hp).2.1
  have h1 : ¬ attR = attT := by decide
  have h2 : ¬ attS = attT := by decide
  unfold attrGet TCell.attrs
  cases c.content <;> cases c.style <;> simp [h0, h1, h2]

theorem attrs_style (c : TCell) (hm : ∀ p ∈ c.more, p.1 ≠ attR ∧ p.1 ≠ attT ∧ p.1 ≠ attS) :
    attrGet c.attrs attS = c.style.map pyStr := by
  have h0 := find_more (k := attS) fun p hp => (hm p hp).2.2
  have h1 : ¬ attR = attS := by decide
  have h2 : ¬ attT = attS := by decide
  unfold attrGet TCell.attrs
  cases c.content <;> cases c.style <;> simp [h0, h1, h2]

/-- The tag of a cell. -/
def TCell.tag (formats : List StyleClass) (c : TCell) : Nat :=
  match c.content with
  | .shared _ => 0x11
  | .plain _ =>
    match c.cls formats with
    | .numeric => 0x20
    | .temporal => 0x24
    | .other => 0x18

theorem pyStrip_digits {s : Str} (h : ∀ c ∈ s, pySpace c = false) : pyStrip s = s := by
  have hd : ∀ (t : Str), (∀ c ∈ t, pySpace c = false) → t.dropWhile pySpace = t := by
    intro t ht
    cases t with
    | nil => rfl
    | cons a t => simp [ht a (by simp)]
  unfold pyStrip
  rw [hd s h, hd s.reverse (by simpa using h), List.reverse_reverse]

theorem digit_range : ∀ n < 10, pySpace (Nat.digitChar n) = false := by decide

theorem pyStr_noSpace (i : Nat) : ∀ c ∈ pyStr i, pySpace c = false := by
  intro c hc
  unfold pyStr at hc
  have h := Nat.isDigit_of_mem_toDigits (b := 10) (by omega) (by omega) hc
  have h' : 48 ≤ c.toNat ∧ c.toNat ≤ 57 := by
    simp only [Char.isDigit, ge_iff_le, Bool.and_eq_true, decide_eq_true_eq] at h
    exact ⟨by simpa using UInt32.le_iff_toNat_le.mp h.1, by simpa using UInt32.le_iff_toNat_le.mp h.2⟩
  unfold pySpace
  simp only [Bool.or_eq_false_iff, Bool.and_eq_false_iff, decide_eq_false_iff_not, beq_eq_false_iff_ne]
  omega

theorem pyStr_ne (i : Nat) : pyStr i ≠ [] := by
  unfold pyStr
  exact Nat.toDigits_ne_nil

/-- The items of a cell. -/
theorem TCell.items_eq {env : Env} {isNull : Str → Bool} {formats : List StyleClass} {shared : List Str} {c : TCell}
    (h : c.Fits env isNull formats shared) {styles : List (Str × Nat)}
    (hs : ∀ i < formats.length, (styles.find? fun p => p.1 = pyStr i).map (·.2) = (formats.getD i .other).tag) :
    XCell.items styles isNull [] c.xml =
      if c.blank isNull then [] else [((c.col : Int), c.tag formats, .text (pyStrip c.content.text))] := by
  rw [TCell.xml, C42_cell styles isNull c.attrs [] c.col c.digits h.digits c.before (fun e he => (h.before e he).2)
    c.content.text (attrs_ref c), attrs_type c h.more, attrs_style c h.more]
  cases hc : c.content with
  | shared i =>
    obtain ⟨_, _, hn⟩ := h.index i hc
    have hp : pyStrip (pyStr i) = pyStr i := pyStrip_digits (pyStr_noSpace i)
    have hb : c.blank isNull = false := by rw [TCell.blank, hc]
    simp only [TContent.text, hp, hn, pyStr_ne, hb, TCell.tag, hc]
    simp
  | plain s =>
    have hb : c.blank isNull = (decide (pyStrip s = []) || isNull (pyStrip s)) := by rw [TCell.blank, hc]
    have hst : ((c.style.map pyStr).getD ['0']) = pyStr (c.style.getD 0) := by
      cases c.style with
      | none => decide
      | some i => rfl
    have hf := hs _ h.style
    simp only [TContent.text, hst, TCell.tag, hc, TCell.cls]
    cases hx : decide (pyStrip s = []) || isNull (pyStrip s) with
    | true =>
      rw [hb, hx, if_pos (by simpa using hx)]
      rfl
    | false =>
      rw [hb, hx, if_neg (by simpa using hx)]
      simp only [Bool.false_eq_true, if_false, reduceCtorEq]
      congr 2
      cases hfi : styles.find? fun p => p.1 = pyStr (c.style.getD 0) with
      | none =>
        rw [hfi] at hf
        cases hcl : formats.getD (c.style.getD 0) .other <;> rw [hcl] at hf <;> simp [StyleClass.tag] at hf ⊢
      | some p =>
        rw [hfi] at hf
        cases hcl : formats.getD (c.style.getD 0) .other <;> rw [hcl] at hf <;> simp [StyleClass.tag] at hf ⊢ <;>
          simp [hf]

/-- Its item has its value. -/
theorem TCell.means {env : Env} {isNull : Str → Bool} {formats : List StyleClass} {shared : List Str} {c : TCell}
    (h : c.Fits env isNull formats shared) (hb : c.blank isNull = false) :
    ∃ v, c.value env formats shared = some v ∧
      rawValue env false (shared.map some) (c.tag formats) (.text (pyStrip c.content.text)) = some (some v) := by
  have hv := h.value hb
  obtain ⟨v, hv⟩ := Option.isSome_iff_exists.mp hv
  refine ⟨v, hv, ?_⟩
  unfold rawValue xlsxValue
  rw [if_neg (by decide)]
  simp only
  unfold TCell.value at hv
  unfold TCell.tag
  cases hc : c.content with
  | shared i =>
    obtain ⟨h1, h2, _⟩ := h.index i hc
    have hp : pyStrip (pyStr i) = pyStr i := pyStrip_digits (pyStr_noSpace i)
    rw [hc] at hv
    simp only at hv
    simp only [TContent.text, hp, h2]
    cases hsi : shared[i]? with
    | none => rw [hsi] at hv; simp at hv
    | some s =>
      rw [hsi] at hv
      simp only [Option.map_some, Option.some.injEq] at hv
      subst hv
      have h1' : i < 4294967296 := h1
      simp [h1', hsi]
  | plain s =>
    rw [hc] at hv
    simp only at hv
    simp only [TContent.text]
    cases hcl : c.cls formats with
    | numeric =>
      rw [hcl] at hv
      simp only [Option.map_eq_some_iff] at hv
      obtain ⟨x, hx, rfl⟩ := hv
      simp [hx]
    | temporal =>
      rw [hcl] at hv
      simp only [Option.map_eq_some_iff] at hv
      obtain ⟨x, hx, rfl⟩ := hv
      simp [hx]
    | other =>
      rw [hcl] at hv
      simp only [Option.some.injEq] at hv
      subst hv
      simp

theorem row_means (inl : Int → Bool) {env : Env} {isNull : Str → Bool} {formats : List StyleClass} {shared : List Str}
    {styles : List (Str × Nat)}
    (hs : ∀ i < formats.length, (styles.find? fun p => p.1 = pyStr i).map (·.2) = (formats.getD i .other).tag) :
    ∀ (row : List TCell), (∀ c ∈ row, c.Fits env isNull formats shared) →
    (∀ c ∈ row, inl c.col = true → ∀ i, c.content ≠ .shared i) →
    List.Forall₂ (MeansIn env false (shared.map some) inl) ((row.map TCell.xml).flatMap (XCell.items styles isNull []))
      (rowValues env isNull formats shared row)
  | [], _, _ => .nil
  | c :: row, h, hi => by
    have ih := row_means inl hs row (fun d hd => h d (by simp [hd])) fun d hd => hi d (by simp [hd])
    have hc := h c (by simp)
    rw [List.map_cons, List.flatMap_cons, TCell.items_eq hc hs]
    unfold rowValues at ih ⊢
    cases hb : c.blank isNull with
    | true => simpa [List.filter_cons, hb] using ih
    | false =>
      obtain ⟨v, hv, hr⟩ := TCell.means hc hb
      simp only [List.filter_cons, hb, Bool.not_false, if_true, List.filterMap_cons, hv, Option.map_some,
        Bool.false_eq_true, if_false, List.singleton_append]
      refine .cons ⟨⟨rfl, hr⟩, fun hk => ?_⟩ ih
      have := hi c (by simp) hk
      simp only [TCell.tag]
      cases hct : c.content with
      | shared i => exact absurd hct (this i)
      | plain s => cases c.cls formats <;> simp

theorem grid_means {env : Env} {isNull : Str → Bool} {formats : List StyleClass} {shared : List Str}
    {styles : List (Str × Nat)}
    (hs : ∀ i < formats.length, (styles.find? fun p => p.1 = pyStr i).map (·.2) = (formats.getD i .other).tag) :
    ∀ (g : TGrid), (∀ row ∈ g, ∀ c ∈ row, c.Fits env isNull formats shared) →
    List.Forall₂ (List.Forall₂ (MeansIn env false (shared.map some) g.inline))
      (g.map fun row => (row.map TCell.xml).flatMap (XCell.items styles isNull []))
      (g.map (rowValues env isNull formats shared)) := fun g hf => by
  rw [List.forall₂_map_left_iff, List.forall₂_map_right_iff, List.forall₂_same]
  intro row hrow
  refine row_means g.inline hs row (hf row hrow) fun c hc hk i hi => ?_
  have := List.all_eq_true.mp (List.all_eq_true.mp hk row hrow) c hc
  rw [hi] at this
  simp at this

end Rxls
