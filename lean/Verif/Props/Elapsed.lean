import Verif.Props.Padding
import Verif.Spec.Elapsed

/-! # Property C96: elapsed time in number format codes -/

namespace Rxls

theorem clock_head {x : Str} (h : x ∈ clockNames) : ∃ c t, x = c :: t ∧ c ∈ dateLetters ∧ c ≠ '\\' ∧ c ≠ '"' ∧ c ≠ '[' := by
  simp only [clockNames, List.mem_cons, List.not_mem_nil, or_false] at h
  rcases h with rfl | rfl | rfl | rfl | rfl | rfl <;> exact ⟨_, _, rfl, by decide⟩

theorem clock_elapsed {x : Str} (h : x ∈ clockNames) : isElapsed x = true := by
  simp only [clockNames, List.mem_cons, List.not_mem_nil, or_false] at h
  rcases h with rfl | rfl | rfl | rfl | rfl | rfl <;> decide

theorem visible_bare : ∀ (s : Str) (m : FmtMode), (∃ c ∈ visible m s, c ∈ dateLetters) ↔
    (∃ c ∈ bare m s, c ∈ dateLetters) ∨ ∃ x ∈ sections m s, x ∈ clockNames
  | [], m => by cases m <;> simp [visible, bare, sections]
  | c :: s, m => by
    cases m with
    | escaped => simpa only [visible, bare, sections] using visible_bare s .normal
    | quoted =>
      simp only [visible, bare, sections]
      split
      · exact visible_bare s .normal
      · exact visible_bare s .quoted
    | bracketed =>
      simp only [visible, bare, sections]
      split
      · exact visible_bare s .normal
      · exact visible_bare s .bracketed
    | normal =>
      simp only [visible, bare, sections]
      by_cases h1 : c = '\\'
      · simp only [if_pos h1]; exact visible_bare s .escaped
      · simp only [if_neg h1]
        by_cases h2 : c = '"' ∧ '"' ∈ s
        · simp only [if_pos h2]; exact visible_bare s .quoted
        · simp only [if_neg h2]
          by_cases h3 : c = '[' ∧ ']' ∈ s
          · simp only [if_pos h3]
            by_cases h4 : s.takeWhile (· ≠ ']') ∈ clockNames
            · rw [if_neg (by tauto)]
              refine iff_of_true ?_ (.inr ⟨_, List.mem_cons_self, h4⟩)
              obtain ⟨d, t, he, hd, k1, k2, k3⟩ := clock_head h4
              cases s with
              | nil => simp at he
              | cons b s =>
                have : b = d := by
                  rw [List.takeWhile_cons] at he
                  split at he
                  · exact (List.cons.inj he).1
                  · cases he
                subst this
                exact ⟨b, List.mem_cons_of_mem _ (by rw [visible_keep b s k1 k2 k3]; exact List.mem_cons_self), hd⟩
            · rw [if_pos ⟨h3.1, h3.2, h4⟩, visible_bare s .bracketed]
              simp only [List.mem_cons, exists_eq_or_imp, h4, false_or]
          · rw [if_neg (fun h => h3 ⟨h.1, h.2.1⟩), if_neg h3, if_neg h3]
            simp only [List.mem_cons, exists_eq_or_imp]
            rw [visible_bare s .normal, or_assoc]

/-- C96, exactly: which codes are taken for dates.  Of the sections for elapsed time, the code knows `h`, `hh`, `m`,
`mm`, `s` and `ss`. -/
theorem C96_exact (fmt : Str) (hn : '\n' ∉ fmt) (hp : PlainEscapes fmt) :
    fmtTemporal fmt = true ↔ bareDate fmt ∨
      ∃ x ∈ sections .normal fmt, x ∈ ["h", "hh", "m", "mm", "s", "ss"].map String.toList := by
  rw [C49_detection_partial fmt hn hp]
  have : ["h", "hh", "m", "mm", "s", "ss"].map String.toList = clockNames := by decide +kernel
  rw [this]
  exact visible_bare fmt .normal

/-- C96: a code taken for a date shows a date, a time or an elapsed time. -/
theorem C96_no_false_date (fmt : Str) (hn : '\n' ∉ fmt) (hp : PlainEscapes fmt) (h : fmtTemporal fmt = true) :
    showsMoment fmt := by
  rw [C49_detection_partial fmt hn hp] at h
  rcases (visible_bare fmt .normal).1 h with h | ⟨x, hx, hc⟩
  · exact .inl h
  · exact .inr ⟨x, hx, clock_elapsed hc⟩

/-- C96, partial: if the sections for elapsed time are in lower case with one or two letters, or the code has another
date or time field, the code is taken for a date exactly when it shows a date, a time or an elapsed time.  Missing: the
others, which are never recognised (`C96_exact`). -/
theorem C96_elapsed_partial (fmt : Str) (hn : '\n' ∉ fmt) (hp : PlainEscapes fmt)
    (h : bareDate fmt ∨ ∀ x ∈ sections .normal fmt, isElapsed x = true → x.length ≤ 2 ∧ ∀ c ∈ x, ¬ c.isUpper) :
    fmtTemporal fmt = true ↔ showsMoment fmt := by
  refine ⟨C96_no_false_date fmt hn hp, fun hm => ?_⟩
  rw [C49_detection_partial fmt hn hp]
  refine (visible_bare fmt .normal).2 ?_
  by_cases hb : bareDate fmt
  · exact .inl hb
  · right
    obtain ⟨x, hx, he⟩ := hm.resolve_left hb
    obtain ⟨h1, h2⟩ := h.resolve_left hb x hx he
    refine ⟨x, hx, ?_⟩
    match x, h1 with
    | [], _ => simp [isElapsed] at he
    | [a], _ =>
      have ha := h2 a (by simp)
      simp only [isElapsed, List.isEmpty_cons, Bool.not_false, Bool.true_and, List.all_cons, List.all_nil, Bool.and_true,
        Bool.or_eq_true, List.contains_iff_mem, List.mem_cons, List.not_mem_nil, or_false] at he
      rcases he with ((rfl | rfl) | (rfl | rfl)) | (rfl | rfl) <;> first | (exact absurd ha (by decide)) | decide
    | [a, b], _ =>
      have ha := h2 a (by simp)
      have hb := h2 b (by simp)
      simp only [isElapsed, List.isEmpty_cons, Bool.not_false, Bool.true_and, List.all_cons, List.all_nil, Bool.and_true,
        Bool.or_eq_true, Bool.and_eq_true, List.contains_iff_mem, List.mem_cons, List.not_mem_nil, or_false] at he
      rcases he with (⟨rfl | rfl, rfl | rfl⟩ | ⟨rfl | rfl, rfl | rfl⟩) | ⟨rfl | rfl, rfl | rfl⟩ <;>
        first | (exact absurd ha (by decide)) | (exact absurd hb (by decide)) | decide

example : ∃ fmt : Str, fmt = "[$-409][hh]\"h\"".toList ∧ '\n' ∉ fmt ∧ PlainEscapes fmt ∧ ¬ bareDate fmt ∧
    sections .normal fmt = ["$-409".toList, "hh".toList] ∧ showsMoment fmt ∧ fmtTemporal fmt = true :=
  ⟨_, rfl, by decide +kernel⟩

example : ∃ fmt : Str, fmt = "[HH]:MM:SS".toList ∧ bareDate fmt ∧ fmtTemporal fmt = true := ⟨_, rfl, by decide +kernel⟩

/-- Finding, C96 fails: elapsed hours in upper case or with three digits are not recognised when no other field stands
beside them. -/
theorem C96_elapsed_finding :
    (∀ fmt ∈ ["[H]", "[HH]", "[hhh]", "[MM]", "[SS].00", "[Red][HH]\" hours\""].map String.toList,
      '\n' ∉ fmt ∧ PlainEscapes fmt ∧ showsMoment fmt ∧ fmtTemporal fmt = false) ∧
    ∀ fmt ∈ ["[h]", "[hh]", "[mm]", "[ss].00", "[Red][hh]\" hours\""].map String.toList,
      showsMoment fmt ∧ fmtTemporal fmt = true := by
  decide +kernel

/-- The finding in the style sheet: a cell format with `[HH]` has no type, so that the number of days comes back as text;
with `[hh]` it has the type of dates and times. -/
theorem C96_styles_finding (toInt : Str → Option Int) (h : toInt "164".toList = some 164) :
    ∀ p ∈ [("[HH]".toList, []), ("[hh]".toList, [(['0'], 0x24)])], xlsxStyles toInt
      ⟨[.start "styleSheet".toList [], .start "numFmts".toList [],
        .start "numFmt".toList [("numFmtId".toList, "164".toList), ("formatCode".toList, p.1)],
        .close "numFmt".toList, .close "numFmts".toList, .start "cellXfs".toList [],
        .start "xf".toList [("numFmtId".toList, "164".toList), ("xfId".toList, ['0'])], .close "xf".toList,
        .close "cellXfs".toList, .close "styleSheet".toList], false⟩ = .ok p.2 := by
  intro p hp
  rw [C79_format_elements toInt _ _ 164 h (by norm_num)]
  revert p
  decide +kernel

end Rxls
