import Verif.Props.Format
import Verif.Spec.Padding
import Verif.Props.Literals
import Verif.Spec.DemoEnv

/-! # Property C93: padding in number format codes -/

namespace Rxls

theorem visible_keep (c : Char) (s : Str) (h1 : c ≠ '\\') (h2 : c ≠ '"') (h3 : c ≠ '[') :
    visible .normal (c :: s) = c :: visible .normal s := by
  simp [visible, h1, h2, h3]

theorem fields_sublist : ∀ (n : Nat) (m : FmtMode) (s : Str), s.length ≤ n → PlainPadding s →
    (fields m s).Sublist (visible m s)
  | _, m, [], _, _ => by cases m <;> simp [fields, visible]
  | 0, _, _ :: _, h, _ => by simp at h
  | n + 1, m, c :: s, hn, hp => by
    have hs : s.length ≤ n := by simpa using hn
    have hp' : PlainPadding s := hp.tail
    cases m with
    | escaped => simpa [fields, visible] using fields_sublist n .normal s hs hp'
    | quoted =>
      simp only [fields, visible]
      split
      · exact fields_sublist n .normal s hs hp'
      · exact fields_sublist n .quoted s hs hp'
    | bracketed =>
      simp only [fields, visible]
      split
      · exact fields_sublist n .normal s hs hp'
      · exact fields_sublist n .bracketed s hs hp'
    | normal =>
      by_cases hb : c = '\\'
      · subst hb
        simpa [fields, visible] using fields_sublist n .escaped s hs hp'
      · by_cases hpad : c = '_' ∨ c = '*'
        · have e1 : fields .normal (c :: s) = fields .escaped s := by simp [fields, hpad]
          have e2 : visible .normal (c :: s) = c :: visible .normal s :=
            visible_keep c s hb (by rcases hpad with rfl | rfl <;> decide) (by rcases hpad with rfl | rfl <;> decide)
          rw [e1, e2]
          refine List.Sublist.cons _ ?_
          cases s with
          | nil => simp [fields, visible]
          | cons b t =>
            have hb' := (List.isChain_cons_cons.1 hp).1 hpad
            simp only [List.mem_cons, List.not_mem_nil, or_false, not_or] at hb'
            rw [visible_keep b t hb'.2.2.1 hb'.1 hb'.2.1]
            refine List.Sublist.cons _ ?_
            simpa [fields] using fields_sublist n .normal t (by simp at hs; omega) hp'.tail
        · have e0 : ¬ (c = '\\' ∨ c = '_' ∨ c = '*') := by tauto
          simp only [fields, visible, if_neg e0, if_neg hb]
          split
          · exact fields_sublist n .quoted s hs hp'
          · split
            · exact fields_sublist n .bracketed s hs hp'
            · exact (fields_sublist n .normal s hs hp').cons₂ _

theorem date_in_fields : ∀ (n : Nat) (m : FmtMode) (s : Str), s.length ≤ n → PlainPadding s → NoDatePadding s →
    ∀ x ∈ visible m s, x ∈ dateLetters → x ∈ fields m s
  | _, m, [], _, _, _ => by cases m <;> simp [fields, visible]
  | 0, _, _ :: _, h, _, _ => by simp at h
  | n + 1, m, c :: s, hn, hp, hq => by
    have hs : s.length ≤ n := by simpa using hn
    have hp' : PlainPadding s := hp.tail
    have hq' : NoDatePadding s := hq.tail
    intro x hx hd
    cases m with
    | escaped =>
      simp only [fields, visible] at hx ⊢
      exact date_in_fields n .normal s hs hp' hq' x hx hd
    | quoted =>
      simp only [fields, visible] at hx ⊢
      split at hx
      · rw [if_pos (by assumption)]; exact date_in_fields n .normal s hs hp' hq' x hx hd
      · rw [if_neg (by assumption)]; exact date_in_fields n .quoted s hs hp' hq' x hx hd
    | bracketed =>
      simp only [fields, visible] at hx ⊢
      split at hx
      · rw [if_pos (by assumption)]; exact date_in_fields n .normal s hs hp' hq' x hx hd
      · rw [if_neg (by assumption)]; exact date_in_fields n .bracketed s hs hp' hq' x hx hd
    | normal =>
      by_cases hb : c = '\\'
      · subst hb
        have e1 : fields .normal ('\\' :: s) = fields .escaped s := by simp [fields]
        have e2 : visible .normal ('\\' :: s) = visible .escaped s := by simp [visible]
        rw [e2] at hx
        rw [e1]
        exact date_in_fields n .escaped s hs hp' hq' x hx hd
      · by_cases hpad : c = '_' ∨ c = '*'
        · have e1 : fields .normal (c :: s) = fields .escaped s := by simp [fields, hpad]
          have e2 : visible .normal (c :: s) = c :: visible .normal s :=
            visible_keep c s hb (by rcases hpad with rfl | rfl <;> decide) (by rcases hpad with rfl | rfl <;> decide)
          rw [e1]
          rw [e2] at hx
          rcases List.mem_cons.1 hx with rfl | hx
          · rcases hpad with rfl | rfl <;> exact absurd hd (by decide)
          · cases s with
            | nil => simp [visible] at hx
            | cons b t =>
              have hb' := (List.isChain_cons_cons.1 hp).1 hpad
              have hc' := (List.isChain_cons_cons.1 hq).1 hpad
              simp only [List.mem_cons, List.not_mem_nil, or_false, not_or] at hb'
              rw [visible_keep b t hb'.2.2.1 hb'.1 hb'.2.1] at hx
              rcases List.mem_cons.1 hx with rfl | hx
              · exact absurd hd hc'
              · exact date_in_fields n .normal t (by simp at hs; omega) hp'.tail hq'.tail x hx hd
        · have e0 : ¬ (c = '\\' ∨ c = '_' ∨ c = '*') := by tauto
          simp only [fields, visible, if_neg e0, if_neg hb] at hx ⊢
          by_cases h1 : c = '"' ∧ '"' ∈ s
          · rw [if_pos h1] at hx ⊢
            exact date_in_fields n .quoted s hs hp' hq' x hx hd
          · rw [if_neg h1] at hx ⊢
            by_cases h2 : c = '[' ∧ ']' ∈ s ∧ s.takeWhile (· ≠ ']') ∉ clockNames
            · rw [if_pos h2] at hx ⊢
              exact date_in_fields n .bracketed s hs hp' hq' x hx hd
            · rw [if_neg h2] at hx ⊢
              rcases List.mem_cons.1 hx with rfl | hx
              · exact List.mem_cons_self
              · exact List.mem_cons_of_mem _ (date_in_fields n .normal s hs hp' hq' x hx hd)

/-- C93: no format with a date or time field is taken for a number. -/
theorem C93_no_date_missed (fmt : Str) (hn : '\n' ∉ fmt) (hp : PlainEscapes fmt) (hq : PlainPadding fmt)
    (h : hasDateField fmt) : fmtTemporal fmt = true := by
  obtain ⟨c, hc, hd⟩ := h
  exact (C49_detection_partial fmt hn hp).2 ⟨c, (fields_sublist _ _ fmt le_rfl hq).subset hc, hd⟩

/-- C93, partial: a format is taken for a date exactly when it has a date or time field, if no padding is as wide as a
letter of a date field.  Missing: such padding, where it fails (below). -/
theorem C93_padding_partial (fmt : Str) (hn : '\n' ∉ fmt) (hp : PlainEscapes fmt) (hq : PlainPadding fmt)
    (hr : NoDatePadding fmt) : fmtTemporal fmt = true ↔ hasDateField fmt := by
  refine ⟨fun h => ?_, C93_no_date_missed fmt hn hp hq⟩
  obtain ⟨c, hc, hd⟩ := (C49_detection_partial fmt hn hp).1 h
  exact ⟨c, date_in_fields _ _ fmt le_rfl hq hr c hc hd, hd⟩

example : ∃ fmt : Str, fmt = "_(* #,##0.00_);_(@_)".toList ∧ '\n' ∉ fmt ∧ PlainEscapes fmt ∧ PlainPadding fmt ∧
    NoDatePadding fmt ∧ ¬ hasDateField fmt ∧ fmtTemporal fmt = false := ⟨_, rfl, by decide +kernel⟩

example : ∃ fmt : Str, fmt = "_-dd/mm_)".toList ∧ PlainPadding fmt ∧ NoDatePadding fmt ∧ hasDateField fmt ∧
    fmtTemporal fmt = true := ⟨_, rfl, by decide +kernel⟩

/-- C93 fails: `#,##0 _D_M`, the accounting format of a currency whose symbol is DM, shows a number with room for the
symbol and is taken for a date; so is `0_m`. -/
theorem C93_padding_finding :
    (¬ hasDateField ['#', ',', '#', '#', '0', ' ', '_', 'D', '_', 'M'] ∧
      fmtTemporal ['#', ',', '#', '#', '0', ' ', '_', 'D', '_', 'M'] = true) ∧
    (¬ hasDateField ['0', '_', 'm'] ∧ fmtTemporal ['0', '_', 'm'] = true) := by
  decide +kernel

/-- C93 fails in the style sheet: cells with the cell format `#,##0 _D_M` are read as dates (type 0x24). -/
theorem C93_styles_finding (toInt : Str → Option Int) (h : toInt "164".toList = some 164) :
    xlsxStyles toInt
      ⟨[.start "styleSheet".toList [], .start "numFmts".toList [],
        .start "numFmt".toList [("numFmtId".toList, "164".toList), ("formatCode".toList, "#,##0 _D_M".toList)],
        .close "numFmt".toList, .close "numFmts".toList, .start "cellXfs".toList [],
        .start "xf".toList [("numFmtId".toList, "164".toList), ("xfId".toList, ['0'])], .close "xf".toList,
        .close "cellXfs".toList, .close "styleSheet".toList], false⟩ = .ok [(['0'], 0x24)] := by
  rw [C79_format_elements toInt _ _ 164 h (by norm_num)]
  decide +kernel

example : (fun s => (demoNat s).map Int.ofNat) "164".toList = some 164 := by decide +kernel

end Rxls
