import Verif.Props.Options
import Verif.Lemmas.ReadConcat
import Verif.Spec.FormatList

/-!
# The list of datetime formats

`datetime_formats` counts only through the moment that the first fitting format gives to each text.  So a format can be
repeated, the default formats can be written out, formats that fit no common text can be exchanged, formats that fit no
text can be left out; and formats that are appended do not change what was recognised without them.
-/

namespace Rxls

theorem mfElem_moment (sp : Str → Option Str → Option Int) (s : Option Str) : ∀ F : List Str,
    mfElem sp F s = (momentBy sp F s).getD 0
  | [] => rfl
  | f :: fs => by
    have ih := mfElem_moment sp s fs
    unfold mfElem at ih ⊢
    rw [List.foldl_cons]
    unfold momentBy
    cases hsp : sp f s with
    | none =>
      have : mfStep sp s 0 f = 0 := by simp [mfStep, strptimeElem, hsp]
      rw [this, ih]
    | some v =>
      have : mfStep sp s 0 f = timeOfDay v := by simp [mfStep, strptimeElem, hsp, timeOfDay]
      rw [this]
      by_cases hv : timeOfDay v = 0
      · rw [hv, ih]; simp [hv]
      · rw [mfStep_foldl_ne sp hv]; simp [hv]

theorem momentBy_ne (sp : Str → Option Str → Option Int) (s : Option Str) : ∀ F : List Str, momentBy sp F s ≠ some 0
  | [] => by simp [momentBy]
  | f :: fs => by
    have ih := momentBy_ne sp s fs
    unfold momentBy
    cases sp f s with
    | none => exact ih
    | some v =>
      simp only
      split
      · exact ih
      · rename_i h; intro e; injection e with e; exact h e

theorem momentBy_append (sp : Str → Option Str → Option Int) (s : Option Str) (G : List Str) : ∀ F : List Str,
    momentBy sp (F ++ G) s = (momentBy sp F s).or (momentBy sp G s)
  | [] => rfl
  | f :: fs => by
    have ih := momentBy_append sp s G fs
    simp only [List.cons_append, momentBy]
    cases sp f s with
    | none => exact ih
    | some v =>
      simp only
      split
      · exact ih
      · rfl

theorem momentBy_cons (sp : Str → Option Str → Option Int) (s : Option Str) (f : Str) (F : List Str) :
    momentBy sp (f :: F) s = (momentBy sp [f] s).or (momentBy sp F s) :=
  momentBy_append sp s F [f]

/-- `mf_strptime`: every text gets the moment that the formats give to it, or the whole array is refused. -/
theorem C141_strptime (sp : Str → Option Str → Option Int) (defaults given : List Str) (arr : List (Option Str)) :
    mfStrptime sp defaults arr given true =
      match arr.mapM (momentBy sp (usedFormats defaults given)) with
      | some r => .ok r
      | none => .error .arrowInvalid := by
  have h : mfStrptime sp defaults arr given true =
      if (arr.map (mfElem sp (usedFormats defaults given))).any (fun r => decide (r = 0)) then .error .arrowInvalid
      else .ok (arr.map (mfElem sp (usedFormats defaults given))) := by
    by_cases hg : given = []
    · have e : mfStrptime sp defaults arr given true = mfStrptime sp [] arr defaults true := by
        rw [hg]
        unfold mfStrptime
        cases defaults <;> simp
      have hF : usedFormats defaults given = defaults := if_pos hg
      rw [e, hF]
      by_cases h0 : defaults = []
      · rw [h0]
        have hm : arr.map (mfElem sp []) = List.replicate arr.length 0 := by
          rw [← List.map_const']; rfl
        rw [hm]
        simp [mfStrptime, mfLoop]
      · rw [mfStrptime_eq _ _ _ _ _ h0]; simp
    · have hF : usedFormats defaults given = given := if_neg hg
      rw [mfStrptime_eq _ _ _ _ _ hg, hF]; simp
  rw [h]
  generalize usedFormats defaults given = F
  clear h
  induction arr with
  | nil => rfl
  | cons s ss ih =>
    rw [List.mapM_cons, List.map_cons, List.any_cons, mfElem_moment]
    cases hm : momentBy sp F s with
    | none => simp
    | some v =>
      have hv : v ≠ 0 := fun e => momentBy_ne sp s F (by rw [hm, e])
      simp only [Option.getD_some, hv, decide_false, Bool.false_or]
      revert ih
      cases List.mapM (momentBy sp F) ss with
      | none =>
        intro ih
        by_cases ha : ((ss.map (mfElem sp F)).any fun r => decide (r = 0)) = true
        · rw [if_pos ha]; rfl
        · rw [if_neg ha] at ih; cases ih
      | some vs =>
        intro ih
        by_cases ha : ((ss.map (mfElem sp F)).any fun r => decide (r = 0)) = true
        · rw [if_pos ha] at ih; cases ih
        · rw [if_neg ha] at ih ⊢
          injection ih with ih
          rw [ih]; rfl

theorem mfStrptime_same {sp : Str → Option Str → Option Int} {defaults F G : List Str}
    (h : SameMoments sp (usedFormats defaults F) (usedFormats defaults G)) (arr : List (Option Str)) :
    mfStrptime sp defaults arr F true = mfStrptime sp defaults arr G true := by
  rw [C141_strptime, C141_strptime, funext h]

theorem concatenate_moments (env : Env) {o o' : ConcatOpts} (h1 : o.confDt = o'.confDt) (h2 : o.confNum = o'.confNum)
    (h3 : o.prec = o'.prec) (h : SameMoments env.strptime (usedFormats env.formats o.formats) (usedFormats env.formats o'.formats))
    (cs : List Chunk) (off len : Int) (idx : Option (List Bool)) :
    concatenate env o cs off len idx = concatenate env o' cs off len idx := by
  have ht : ∀ c : Chunk, c.asTemporal env o.formats = c.asTemporal env o'.formats := by
    intro c
    unfold Chunk.asTemporal
    simp only [mfStrptime_same h]
  have hs : stepStrTemporal env o = stepStrTemporal env o' := by
    funext s
    unfold stepStrTemporal
    rw [ht, h2]
  have hc : concatSlots env o = concatSlots env o' := by
    funext ss
    have e1 : convertPhase env o ss = convertPhase env o' ss := by
      unfold convertPhase
      rw [h1, h2, hs]
    have e2 : ∀ a b c ss, typePhase o a b c ss = typePhase o' a b c ss := by
      intro a b c ss
      unfold typePhase
      rw [h3]
    unfold concatSlots
    simp only [e1, e2]
  unfold concatenate
  rw [hc]

theorem readCells_moments {A D : Type} (env : Env) (lib : Lib A D) (search : Str → Option (Str → Bool))
    (reMatch : Str → Str → Py Bool) (args : ReadArgs D) {o o' : ConcatOpts} (h1 : o.confDt = o'.confDt)
    (h2 : o.confNum = o'.confNum) (h3 : o.prec = o'.prec)
    (h : SameMoments env.strptime (usedFormats env.formats o.formats) (usedFormats env.formats o'.formats))
    (shared : List (Option Str)) (b : Bool) (cells : List Cell) :
    readCells env lib search reMatch args { shared := shared, binary := b, opts := o' } cells =
      readCells env lib search reMatch args { shared := shared, binary := b, opts := o } cells := by
  refine readCells_blind (o' := o') (I := fun _ s => s.opts = o) (fresh := { shared := shared, binary := b, opts := o })
    ?_ lib search reMatch args (fun _ => rfl) ?_
  · intro off len idx k s hs
    refine ⟨toArrow_with env s off len idx fun s' _ => ?_, ?_⟩
    · rw [hs]; exact (concatenate_moments env h1 h2 h3 h _ _ _ _).symm
    · simp only
      unfold Series.toArrow
      cases hf : s.flush env with
      | error e => exact hs
      | ok s' =>
        have := flush_opts hf
        simp only
        split
        · rw [this]; exact hs
        · cases concatenate env s'.opts s'.chunks off len idx with
          | mk cs r => cases r <;> (simp only; rw [this]; exact hs)
  · intro c _ s s' hs e
    rw [add_opts e]; exact hs

/-- Lists of formats that read every text alike read every file alike. -/
theorem C141_same {A D : Type} (env : Env) (lib : Lib A D) (search : Str → Option (Str → Bool))
    (reMatch : Str → Str → Py Bool) (toInt : Str → Option Int) (a : FileArgs D) (F G : List Str) (p : Package)
    (h : SameMoments env.strptime (usedFormats env.formats F) (usedFormats env.formats G)) :
    readFile env lib search reMatch toInt { a with formats := .many F } p =
      readFile env lib search reMatch toInt { a with formats := .many G } p := by
  have key : ∀ (args : ReadArgs D) shared b cells,
      readCells env lib search reMatch args
        { shared := shared, binary := b, opts := concatOpts a.conflict (.many F) a.precision } cells =
      readCells env lib search reMatch args
        { shared := shared, binary := b, opts := concatOpts a.conflict (.many G) a.precision } cells :=
    fun args shared b cells => readCells_moments env lib search reMatch args
      (o := concatOpts a.conflict (.many G) a.precision) (o' := concatOpts a.conflict (.many F) a.precision)
      rfl rfl rfl (fun s => (h s).symm) shared b cells
  unfold readFile
  cases fileKind p.names with
  | error e => rfl
  | ok k =>
    cases k with
    | xlsx => simp only [readXlsx, key]
    | xlsb => simp only [readXlsb, key]

/-- Repeating a format changes nothing: any file, any other arguments. -/
theorem C141_repeated {A D : Type} (env : Env) (lib : Lib A D) (search : Str → Option (Str → Bool))
    (reMatch : Str → Str → Py Bool) (toInt : Str → Option Int) (a : FileArgs D) (l m n : List Str) (f : Str) (p : Package) :
    readFile env lib search reMatch toInt { a with formats := .many (l ++ f :: m ++ f :: n) } p =
      readFile env lib search reMatch toInt { a with formats := .many (l ++ f :: m ++ n) } p := by
  refine C141_same env lib search reMatch toInt a _ _ p fun s => ?_
  rw [usedFormats, usedFormats, if_neg (by simp), if_neg (by simp)]
  rw [momentBy_append, momentBy_append, momentBy_append, momentBy_append, momentBy_cons env.strptime s f m,
    momentBy_cons env.strptime s f n]
  cases momentBy env.strptime l s <;> cases momentBy env.strptime [f] s <;> cases momentBy env.strptime m s <;> rfl

/-- Writing out the default formats is the same as giving none. -/
theorem C141_defaults {A D : Type} (env : Env) (lib : Lib A D) (search : Str → Option (Str → Bool))
    (reMatch : Str → Str → Py Bool) (toInt : Str → Option Int) (a : FileArgs D) (p : Package) :
    readFile env lib search reMatch toInt { a with formats := .many env.formats } p =
      readFile env lib search reMatch toInt { a with formats := .none } p := by
  have h : readFile env lib search reMatch toInt { a with formats := .none } p =
      readFile env lib search reMatch toInt { a with formats := .many [] } p := rfl
  rw [h]
  refine C141_same env lib search reMatch toInt a _ _ p fun s => ?_
  have : usedFormats env.formats env.formats = usedFormats env.formats [] := by
    simp [usedFormats]
  rw [this]

/-- Neighbouring formats that fit no common text can be exchanged. -/
theorem C141_exchange {A D : Type} (env : Env) (lib : Lib A D) (search : Str → Option (Str → Bool))
    (reMatch : Str → Str → Py Bool) (toInt : Str → Option Int) (a : FileArgs D) (l m : List Str) (f g : Str)
    (h : Apart env.strptime f g) (p : Package) :
    readFile env lib search reMatch toInt { a with formats := .many (l ++ f :: g :: m) } p =
      readFile env lib search reMatch toInt { a with formats := .many (l ++ g :: f :: m) } p := by
  refine C141_same env lib search reMatch toInt a _ _ p fun s => ?_
  rw [usedFormats, usedFormats, if_neg (by simp), if_neg (by simp)]
  simp only [momentBy_append, momentBy]
  rcases h s with h | h
  · simp only [h]
  · simp only [h]

/-- A format that fits no text can be left out, if it is not the only one. -/
theorem C141_useless {A D : Type} (env : Env) (lib : Lib A D) (search : Str → Option (Str → Bool))
    (reMatch : Str → Str → Py Bool) (toInt : Str → Option Int) (a : FileArgs D) (l m : List Str) (f : Str)
    (h : ∀ s, env.strptime f s = none) (hl : l ++ m ≠ []) (p : Package) :
    readFile env lib search reMatch toInt { a with formats := .many (l ++ f :: m) } p =
      readFile env lib search reMatch toInt { a with formats := .many (l ++ m) } p := by
  refine C141_same env lib search reMatch toInt a _ _ p fun s => ?_
  rw [usedFormats, usedFormats, if_neg (by simp), if_neg hl]
  simp only [momentBy_append, momentBy, h s]

/-- What is recognised with some formats is read the same if more formats are appended. -/
theorem C141_appended (sp : Str → Option Str → Option Int) (defaults F G : List Str) (hF : F ≠ []) (arr : List (Option Str))
    (r : List Int) (h : mfStrptime sp defaults arr F true = .ok r) : mfStrptime sp defaults arr (F ++ G) true = .ok r := by
  rw [C141_strptime] at h ⊢
  have e1 : usedFormats defaults F = F := if_neg hF
  have e2 : usedFormats defaults (F ++ G) = F ++ G := if_neg (by simp [hF])
  rw [e1] at h
  rw [e2]
  have h' : arr.mapM (momentBy sp F) = some r := by
    cases hm : arr.mapM (momentBy sp F) with
    | none => rw [hm] at h; cases h
    | some v => rw [hm] at h; injection h with h; rw [h]
  clear h
  suffices arr.mapM (momentBy sp (F ++ G)) = some r by rw [this]
  induction arr generalizing r with
  | nil => exact h'
  | cons s ss ih =>
    rw [List.mapM_cons] at h' ⊢
    rw [momentBy_append]
    cases hm : momentBy sp F s with
    | none => rw [hm] at h'; cases h'
    | some v =>
      rw [hm] at h'
      cases ht : ss.mapM (momentBy sp F) with
      | none => rw [ht] at h'; cases h'
      | some vs =>
        rw [ht] at h'
        rw [ih vs ht]
        exact h'

/-! ## Examples -/

/-- A parser of two formats: `d` reads `12` as the moment 12, `m` as the moment 21; `t` fits nothing. -/
def twoWays (f : Str) (s : Option Str) : Option Int :=
  if s ≠ some ['1', '2'] then none else if f = ['d'] then some 12 else if f = ['m'] then some 21 else none

/-- The order of formats that fit a common text matters: `Apart` is needed. -/
theorem C141_order_matters : ¬ Apart twoWays ['d'] ['m'] ∧
    mfStrptime twoWays [] [some ['1', '2']] [['d'], ['m']] true = .ok [12] ∧
    mfStrptime twoWays [] [some ['1', '2']] [['m'], ['d']] true = .ok [21] := by
  refine ⟨fun h => ?_, by decide +kernel, by decide +kernel⟩
  rcases h (some ['1', '2']) with h | h <;> revert h <;> decide +kernel

/-- A useless format as the only one is not the same as none: `l ++ m ≠ []` is needed. -/
example : mfStrptime twoWays [['d']] [some ['1', '2']] [['t']] true = .error .arrowInvalid ∧
    mfStrptime twoWays [['d']] [some ['1', '2']] [] true = .ok [12] := by decide +kernel

/-- Formats that are put in front do change what was recognised. -/
example : mfStrptime twoWays [] [some ['1', '2']] ([['m']] ++ [['d']]) true ≠
    mfStrptime twoWays [] [some ['1', '2']] [['d']] true := by decide +kernel

example : Apart twoWays ['d'] ['t'] := fun s => Or.inr (by unfold twoWays; split <;> simp)

example : mfStrptime twoWays [] [some ['1', '2']] [['t'], ['d'], ['t'], ['m']] true = .ok [12] := by decide +kernel

/-- The formats do decide about the table: a date and the text `12`, with a format that fits the text and without. -/
example :
    let read := fun F => readCells { demoEnv with strptime := twoWays } exLib (fun _ => none) (fun _ _ => .ok false) {}
        { shared := [], binary := false, opts := concatOpts strTemporal (.many F) 6 }
        [⟨0, 0, 0x24, .text ['1']⟩, ⟨2, 0, 0x10, .text ['1', '2']⟩]
    read [['t']] ≠ read [['d']] := by decide +kernel

/-- A moment of zero counts as not recognised. -/
example : mfStrptime (fun _ _ => some 0) [] [some ['1']] [['d']] true = .error .arrowInvalid := by decide +kernel

end Rxls
