import Verif.Lemmas.Delivered
import Verif.Lemmas.ReadTable
import Verif.Spec.HGrid

/-! # Rows of cells with a kind, and the cells they are read from -/

namespace Rxls

/-- Item and cell belong together. -/
def HMeans (env : Env) (b : Bool) (shared : List (Option Str)) (it : Item) (p : Int × Nat × Option Val) : Prop :=
  it.1 = p.1 ∧ it.2.1 = p.2.1 ∧ rawValue env b shared it.2.1 it.2.2 = some p.2.2

/-! ## Numbers of runs -/

theorem runNumbers_tags {α β : Type} : ∀ (l : List (Option (Nat × α))) (m : List (Option (Nat × β))) (n : Nat)
    (prev : Option (Option Nat)), l.map (Option.map (·.1)) = m.map (Option.map (·.1)) →
    runNumbers n prev l = runNumbers n prev m
  | [], [], _, _, _ => rfl
  | [], _ :: _, _, _, h => by simp at h
  | _ :: _, [], _, _, h => by simp at h
  | r :: l, s :: m, n, prev, h => by
    simp only [List.map_cons, List.cons.injEq] at h
    simp only [runNumbers, h.1]
    rw [runNumbers_tags l m _ _ h.2]

theorem runNumbers_prefix {α : Type} (rest : List (Option (Nat × α))) : ∀ (l : List (Option (Nat × α))) (n : Nat)
    (prev : Option (Option Nat)), (runNumbers n prev (l ++ rest)).take l.length = runNumbers n prev l
  | [], _, _ => rfl
  | r :: l, n, prev => by
    simp only [List.cons_append, runNumbers, List.length_cons, List.take_succ_cons]
    rw [runNumbers_prefix rest l]

/-- Empty rows below a column change nothing. -/
theorem cellAt_heldRows (env : Env) (b : Bool) (shared : List (Option Str)) (l : List (Option (Nat × Raw))) (n i : Nat) :
    cellAt (heldRows env b shared l) i = cellAt (heldRows env b shared (l ++ List.replicate n none)) i := by
  unfold cellAt heldRows
  rw [List.getElem?_zipWith, List.getElem?_zipWith]
  by_cases hi : i < l.length
  · have h := congrArg (fun x => x[i]?) (runNumbers_prefix (List.replicate n (none : Option (Nat × Raw))) l 0 none)
    simp only [List.getElem?_take, hi, if_true] at h
    rw [h, List.getElem?_append_left hi]
  · have h1 : (runNumbers 0 none l)[i]? = none := List.getElem?_eq_none (by rw [runNumbers_length]; omega)
    rw [h1, List.getElem?_append_right (by omega)]
    simp only [Option.join_none]
    cases h2 : (runNumbers 0 none (l ++ List.replicate n none))[i]? with
    | none => rfl
    | some m =>
      rw [List.getElem?_replicate]
      by_cases h3 : i - l.length < n <;> simp [h3]

/-! ## Columns -/

section
variable {env : Env} {b : Bool} {shared : List (Option Str)} {L : List (List Item)} {H : HGrid}

theorem hmeans_find {l : List Item} {vs : List (Int × Nat × Option Val)} (h : List.Forall₂ (HMeans env b shared) l vs)
    (k : Int) :
    (vs.find? fun p => p.1 = k).map (·.2) =
      ((l.find? fun it => it.1 = k).map fun it => (it.2.1, it.2.2)).map fun c =>
        (c.1, (rawValue env b shared c.1 c.2).join) := by
  induction h with
  | nil => rfl
  | @cons it p l vs hm _ ih =>
    obtain ⟨h1, h2, h3⟩ := hm
    by_cases hk : p.1 = k
    · have hk' : it.1 = k := h1.trans hk
      rw [List.find?_cons_of_pos (by simpa using hk), List.find?_cons_of_pos (by simpa using hk')]
      simp only [Option.map_some, h3, Option.join_some, Option.some.injEq]
      rw [h2]
    · have hk' : ¬ it.1 = k := fun e => hk (h1.symm.trans e)
      simpa [List.find?_cons, hk, hk'] using ih

theorem hgrid_at (h : List.Forall₂ (List.Forall₂ (HMeans env b shared)) L H) (k : Int) (i : Nat) :
    H.at k i = (rawAt (colCells (itemsFrom 0 L) k) i).map fun c => (c.1, (rawValue env b shared c.1 c.2).join) := by
  rw [← Nat.zero_add i, rawAt_itemsFrom, Nat.zero_add]
  exact hmeans_find (forall2_getD h i) k

theorem height_items (L : List (List Item)) (k : Int) : height (colCells (itemsFrom 0 L) k) ≤ L.length := by
  by_cases hne : colCells (itemsFrom 0 L) k = []
  · rw [hne]; exact Nat.zero_le _
  · obtain ⟨d, hd, e⟩ := height_attained hne
    obtain ⟨r, it, hr, _, rfl⟩ := mem_itemsFrom.mp (List.mem_filter.mp hd).1
    have : (Item.cell (0 + r) it).row = r := by simp [Item.cell]
    omega

theorem rawAt_above {cs : List Cell} {i : Nat} (h : height cs ≤ i) : rawAt cs i = none := by
  unfold rawAt
  cases hf : cs.find? fun c => decide (i ≤ c.row) with
  | none => rfl
  | some c =>
    have h1 := height_ge (List.mem_of_find?_eq_some hf)
    have h2 := List.find?_some hf
    simp at h2
    omega

theorem column_extended (L : List (List Item)) (k : Int) :
    rawColumn (colCells (itemsFrom 0 L) k) ++
        List.replicate (L.length - height (colCells (itemsFrom 0 L) k)) none =
      (List.range L.length).map (rawAt (colCells (itemsFrom 0 L) k)) := by
  have hle := height_items L k
  generalize colCells (itemsFrom 0 L) k = cs at hle
  apply List.ext_getElem?
  intro i
  unfold rawColumn
  by_cases h1 : i < height cs
  · rw [List.getElem?_append_left (by simpa using h1)]
    simp [h1, show i < L.length by omega]
  · rw [List.getElem?_append_right (by simpa using h1), List.getElem?_replicate]
    by_cases h2 : i < L.length
    · rw [if_pos (by simp; omega)]
      simp [h2, rawAt_above (Nat.le_of_not_lt h1)]
    · rw [if_neg (by simp; omega)]
      simp [h2]

theorem hgrid_rows (h : List.Forall₂ (List.Forall₂ (HMeans env b shared)) L H) (k : Int) (i : Nat) :
    cellAt (heldRows env b shared (rawColumn (colCells (itemsFrom 0 L) k))) i = cellAt (H.rows k) i := by
  rw [cellAt_heldRows env b shared _ (L.length - height (colCells (itemsFrom 0 L) k)), column_extended]
  have hcol : H.column k = ((List.range L.length).map (rawAt (colCells (itemsFrom 0 L) k))).map
      (Option.map fun c => (c.1, (rawValue env b shared c.1 c.2).join)) := by
    rw [HGrid.column, ← h.length_eq, List.map_map]
    apply List.map_congr_left
    intro r _
    exact hgrid_at h k r
  have e : H.rows k = heldRows env b shared ((List.range L.length).map (rawAt (colCells (itemsFrom 0 L) k))) := by
    unfold HGrid.rows heldRows
    rw [runNumbers_tags _ _ 0 none (show (H.column k).map (Option.map (·.1)) =
        ((List.range L.length).map (rawAt (colCells (itemsFrom 0 L) k))).map (Option.map (·.1)) by
      rw [hcol, List.map_map]
      apply List.map_congr_left
      intro r _
      cases r <;> rfl), hcol, List.zipWith_map_right]
    congr 1
    funext n r
    cases r <;> rfl
  rw [e]

/-! ## Where the cells are -/

theorem hmeans_shape (h : List.Forall₂ (List.Forall₂ (HMeans env b shared)) L H) :
    List.Forall₂ (List.Forall₂ SameCol) L H.shape := by
  unfold HGrid.shape
  rw [List.forall₂_map_right_iff]
  refine h.imp fun _ _ h => ?_
  rw [List.forall₂_map_right_iff]
  exact h.imp fun _ _ h => h.1

theorem hgrid_valid (h : List.Forall₂ (List.Forall₂ (HMeans env b shared)) L H) :
    ValidCells env b shared (itemsFrom 0 L) := by
  intro d hd
  obtain ⟨r, it, _, hit, rfl⟩ := mem_itemsFrom.mp hd
  obtain ⟨p, _, _, _, hp⟩ := forall2_mem_left (forall2_getD h r) hit
  exact Option.isSome_iff_exists.mpr ⟨_, hp⟩

theorem pickRows_congr {α : Type} {v w : List (Option α)} (h : ∀ i, cellAt v i = cellAt w i) (off len : Nat)
    (m : Option (List Bool)) : pickRows v off len m = pickRows w off len m := by
  cases m <;> simp only [pickRows, window, maskedRows, h]

theorem hgrid_view (h : List.Forall₂ (List.Forall₂ (HMeans env b shared)) L H) (o : ConcatOpts) :
    heldView env o b shared (itemsFrom 0 L) = H.view env o := by
  funext k off len m
  rw [heldView, HGrid.view, pickRows_congr (hgrid_rows h k)]

theorem mem_cellAt {α : Type} {l : List (Option α)} {v : α} : some v ∈ l ↔ ∃ i, cellAt l i = some v := by
  constructor
  · intro h
    obtain ⟨i, hi, e⟩ := List.mem_iff_getElem.mp h
    exact ⟨i, by unfold cellAt; rw [List.getElem?_eq_getElem hi, e]; rfl⟩
  · rintro ⟨i, hi⟩
    unfold cellAt at hi
    cases hl : l[i]? with
    | none => rw [hl] at hi; simp at hi
    | some x =>
      rw [hl] at hi
      simp only [Option.join_some] at hi
      subst hi
      exact List.mem_of_getElem? hl

theorem hmeans_without (h : List.Forall₂ (List.Forall₂ (HMeans env b shared)) L H) (cols : List Int) :
    List.Forall₂ (List.Forall₂ (HMeans env b shared)) (L.map fun is => is.filter fun i => !cols.contains i.1)
      (H.without cols) := by
  refine forall2_filterMap ?_ h
  intro a c hac
  rw [hac.1]
  simp

end

/-! ## XLSX -/

theorem TCell.Readable.items_eq {env : Env} {isNull : Str → Bool} {formats : List StyleClass}
    {shared : List (Option Str)} {c : TCell} (h : c.Readable env isNull formats shared) {styles : List (Str × Nat)}
    (hs : ∀ i < formats.length, (styles.find? fun p => p.1 = pyStr i).map (·.2) = (formats.getD i .other).tag) :
    XCell.items styles isNull [] c.xml =
      if c.passed isNull then [] else [((c.col : Int), c.kind formats, .text (pyStrip c.content.text))] := by
  rw [TCell.xml, C42_cell styles isNull c.attrs [] c.col c.digits h.digits c.before (fun e he => (h.before e he).2)
    c.content.text (attrs_ref c), attrs_type c h.more, attrs_style c h.more]
  cases hc : c.content with
  | shared i =>
    have hp : pyStrip (pyStr i) = pyStr i := pyStrip_digits (pyStr_noSpace i)
    have hb : c.passed isNull = isNull (pyStr i) := by rw [TCell.passed, hc]
    simp only [TContent.text, hp, pyStr_ne, hb, TCell.kind, hc]
    simp
  | plain s =>
    have hb : c.passed isNull = (decide (pyStrip s = []) || isNull (pyStrip s)) := by rw [TCell.passed, hc]
    have hst : ((c.style.map pyStr).getD ['0']) = pyStr (c.style.getD 0) := by
      cases c.style with
      | none => decide
      | some i => rfl
    have hf := hs _ h.style
    simp only [TContent.text, hst, TCell.kind, hc, TCell.cls]
    cases hx : decide (pyStrip s = []) || isNull (pyStrip s) with
    | true =>
      rw [hb, hx, if_pos (by simpa using hx)]
      rfl
    | false =>
      rw [hb, hx, if_neg (by simpa using hx)]
      simp only [Bool.false_eq_true, if_false, reduceCtorEq]
      congr 2
      cases hfi : styles.find? fun p => p.1 = pyStr (c.style.getD 0) with
      | none =>
        rw [hfi] at hf
        cases hcl : formats.getD (c.style.getD 0) .other <;> rw [hcl] at hf <;> simp [StyleClass.tag] at hf ⊢
      | some p =>
        rw [hfi] at hf
        cases hcl : formats.getD (c.style.getD 0) .other <;> rw [hcl] at hf <;> simp [StyleClass.tag] at hf ⊢ <;>
          simp [hf]

theorem TCell.Readable.means {env : Env} {isNull : Str → Bool} {formats : List StyleClass}
    {shared : List (Option Str)} {c : TCell} (h : c.Readable env isNull formats shared) (hb : c.passed isNull = false) :
    ∃ v, c.held env formats shared = some v ∧
      rawValue env false shared (c.kind formats) (.text (pyStrip c.content.text)) = some v := by
  obtain ⟨v, hv⟩ := Option.isSome_iff_exists.mp (h.held hb)
  refine ⟨v, hv, ?_⟩
  unfold rawValue xlsxValue
  rw [if_neg (by decide)]
  simp only
  unfold TCell.held at hv
  unfold TCell.kind
  cases hc : c.content with
  | shared i =>
    obtain ⟨h1, h2⟩ := h.index i hc
    have hp : pyStrip (pyStr i) = pyStr i := pyStrip_digits (pyStr_noSpace i)
    rw [hc] at hv
    simp only at hv
    simp only [TContent.text, hp, h2]
    cases hsi : shared[i]? with
    | none => rw [hsi] at hv; simp at hv
    | some s =>
      rw [hsi] at hv
      simp only [Option.map_some, Option.some.injEq] at hv
      subst hv
      have h1' : i < 4294967296 := h1
      simp [h1', hsi]
  | plain s =>
    rw [hc] at hv
    simp only at hv
    simp only [TContent.text]
    cases hcl : c.cls formats with
    | numeric =>
      rw [hcl] at hv
      simp only [Option.map_eq_some_iff] at hv
      obtain ⟨x, hx, rfl⟩ := hv
      simp [hx]
    | temporal =>
      rw [hcl] at hv
      simp only [Option.map_eq_some_iff] at hv
      obtain ⟨x, hx, rfl⟩ := hv
      simp [hx]
    | other =>
      rw [hcl] at hv
      simp only [Option.some.injEq] at hv
      subst hv
      simp

theorem row_hmeans {env : Env} {isNull : Str → Bool} {formats : List StyleClass} {shared : List (Option Str)}
    {styles : List (Str × Nat)}
    (hs : ∀ i < formats.length, (styles.find? fun p => p.1 = pyStr i).map (·.2) = (formats.getD i .other).tag) :
    ∀ (row : List TCell), (∀ c ∈ row, c.Readable env isNull formats shared) →
    List.Forall₂ (HMeans env false shared) ((row.map TCell.xml).flatMap (XCell.items styles isNull []))
      (rowHeld env isNull formats shared row)
  | [], _ => .nil
  | c :: row, h => by
    have ih := row_hmeans hs row (fun d hd => h d (by simp [hd]))
    have hc := h c (by simp)
    rw [List.map_cons, List.flatMap_cons, hc.items_eq hs]
    unfold rowHeld at ih ⊢
    cases hb : c.passed isNull with
    | true => simpa [List.filter_cons, hb] using ih
    | false =>
      obtain ⟨v, hv, hr⟩ := hc.means hb
      simp only [List.filter_cons, hb, Bool.not_false, if_true, List.filterMap_cons, hv, Option.map_some,
        Bool.false_eq_true, if_false, List.singleton_append]
      exact .cons ⟨rfl, rfl, hr⟩ ih

theorem grid_hmeans {env : Env} {isNull : Str → Bool} {formats : List StyleClass} {shared : List (Option Str)}
    {styles : List (Str × Nat)}
    (hs : ∀ i < formats.length, (styles.find? fun p => p.1 = pyStr i).map (·.2) = (formats.getD i .other).tag)
    (g : TGrid) (hf : ∀ row ∈ g, ∀ c ∈ row, c.Readable env isNull formats shared) :
    List.Forall₂ (List.Forall₂ (HMeans env false shared))
      (g.map fun row => (row.map TCell.xml).flatMap (XCell.items styles isNull []))
      (g.held env isNull formats shared) := by
  unfold TGrid.held
  rw [List.forall₂_map_left_iff, List.forall₂_map_right_iff, List.forall₂_same]
  exact fun row hrow => row_hmeans hs row (hf row hrow)

end Rxls
