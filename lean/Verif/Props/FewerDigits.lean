import Verif.Props.WholeNumbers

/-!
# Property C142: with fewer digits no integers are lost

`float_precision` is the number of digits after the point that count.  A column that is delivered as integers with some
digits should be delivered as integers, the same ones, when fewer digits count.
-/

namespace Rxls

theorem rneInt_within {r : ℚ} {N : ℤ} (h : |r - N| < 1 / 2) : rneInt r = N := by
  have h1 := rneInt_err r
  have h2 : |((rneInt r - N : ℤ) : ℚ)| < 1 := by
    push_cast
    have := abs_add_le ((rneInt r : ℚ) - r) (r - N)
    rw [show (rneInt r : ℚ) - r + (r - N) = rneInt r - N by ring] at this
    linarith
  have h3 : |rneInt r - N| < 1 := by exact_mod_cast h2
  have := Int.abs_lt_one_iff.mp h3
  omega

/-- A number close to a whole number is rounded to it. -/
theorem npRound_close {q : ℚ} {n : ℤ} {p : Nat} (hn : |n| ≤ 2 ^ 53) (hq : |q| * 10 ^ p ≤ 2 ^ 49)
    (h : |q - n| * 10 ^ p ≤ 2 / 5) : npRound (.fin q) p = .fin n := by
  have h0 : (0 : ℚ) < 10 ^ p := by positivity
  have habs : |q * 10 ^ p| = |q| * 10 ^ p := by rw [abs_mul, abs_of_pos h0]
  have hbig : |q * 10 ^ p| ≤ (2 : ℚ) ^ (1023 : ℤ) := by
    rw [habs]
    refine hq.trans ?_
    have := two_zpow_le (a := 49) (b := 1023) (by norm_num)
    exact le_trans (le_of_eq (by norm_num)) this
  have he := rndQ_rel (q * 10 ^ p)
  have ht : (2 : ℚ) ^ (-1075 : ℤ) ≤ 1 / 2 ^ 10 := by
    have := two_zpow_le (a := -1075) (b := -10) (by norm_num)
    exact this.trans (le_of_eq (by norm_num))
  have hm : |q * 10 ^ p| * (2 : ℚ) ^ (-53 : ℤ) ≤ 1 / 2 ^ 4 := by
    rw [habs]
    calc _ ≤ (2 : ℚ) ^ 49 * (2 : ℚ) ^ (-53 : ℤ) := mul_le_mul_of_nonneg_right hq (le_of_lt (two_zpow_pos _))
      _ = 1 / 2 ^ 4 := by norm_num
  have hsub : |q * 10 ^ p - ((n * 10 ^ p : ℤ) : ℚ)| ≤ 2 / 5 := by
    push_cast
    rw [← sub_mul, abs_mul, abs_of_pos h0]
    exact h
  have hr : rneInt (rndQ (q * 10 ^ p)) = n * 10 ^ p := by
    apply rneInt_within
    have := abs_add_le (rndQ (q * 10 ^ p) - q * 10 ^ p) (q * 10 ^ p - ((n * 10 ^ p : ℤ) : ℚ))
    rw [sub_add_sub_cancel] at this
    calc _ ≤ _ := this
      _ ≤ (1 / 2 ^ 4 + 1 / 2 ^ 10) + 2 / 5 := add_le_add (he.trans (add_le_add hm ht)) hsub
      _ < 1 / 2 := by norm_num
  simp only [npRound, F64.mul, rnd_fin hbig, F64.rint, hr, F64.div, if_neg h0.ne']
  push_cast
  rw [mul_div_cancel_right₀ _ h0.ne', rnd_int hn]

theorem whole_fewer {x : F64} {p p' : Nat} (hp : p ≤ p') (hp' : p' ≤ 15)
    (hx : ∀ q, x = .fin q → |q| * 10 ^ p' ≤ 2 ^ 51) (h : f8IsI8 [x] p' = true) : f8IsI8 [x] p = true := by
  rcases hp.lt_or_eq with hp | rfl
  · cases x with
    | fin q =>
      have hq := hx q rfl
      have e' : F64.beq (F64.trunc (.fin q)) (npRound (.fin q) p') = true := by simpa [f8IsI8] using h
      have h10 : (0 : ℚ) < 10 ^ p := by positivity
      have h10' : (0 : ℚ) < 10 ^ p' := by positivity
      have hten : (10 : ℚ) ^ p * 10 ≤ 10 ^ p' := by
        rw [← pow_succ]
        exact pow_le_pow_right₀ (by norm_num) hp
      have hone : (1 : ℚ) ≤ 10 ^ p' := one_le_pow₀ (by norm_num)
      have ha := abs_nonneg q
      have hq51 : |q| ≤ 2 ^ 51 := (le_mul_of_one_le_right ha hone).trans hq
      have hd := isI8_elem hp' (hq51.trans_lt (by norm_num)) e'
      have htr : |F64.truncQ q| ≤ 2 ^ 53 := by
        have h1 : (1 / 2 + 1 / 2 ^ 40 : ℚ) / 10 ^ p' ≤ 1 := by
          rw [div_le_one h10']
          exact le_trans (by norm_num) hone
        have h2 : |q| / 2 ^ 50 ≤ 2 := by
          rw [div_le_iff₀ (by positivity)]
          exact hq51.trans (by norm_num)
        have h3 := abs_add_le ((F64.truncQ q : ℚ) - q) q
        rw [sub_add_cancel] at h3
        have h4 : |(F64.truncQ q : ℚ)| ≤ 2 ^ 53 := by
          have : (2 : ℚ) ^ 51 + 3 ≤ 2 ^ 53 := by norm_num
          linarith
        exact_mod_cast h4
      have hclose : |q - (F64.truncQ q : ℚ)| * 10 ^ p ≤ 2 / 5 := by
        rw [abs_sub_comm]
        have h1 : |(F64.truncQ q : ℚ) - q| * 10 ^ p' ≤ 1 / 2 + 1 / 2 ^ 40 + 2 := by
          calc _ ≤ ((1 / 2 + 1 / 2 ^ 40) / 10 ^ p' + |q| / 2 ^ 50) * 10 ^ p' := mul_le_mul_of_nonneg_right hd h10'.le
            _ = 1 / 2 + 1 / 2 ^ 40 + |q| * 10 ^ p' / 2 ^ 50 := by field_simp
            _ ≤ _ := by
              have : |q| * 10 ^ p' / 2 ^ 50 ≤ 2 := by
                rw [div_le_iff₀ (by positivity)]
                exact hq.trans (by norm_num)
              linarith
        have h2 : |(F64.truncQ q : ℚ) - q| * (10 ^ p * 10) ≤ |(F64.truncQ q : ℚ) - q| * 10 ^ p' :=
          mul_le_mul_of_nonneg_left hten (abs_nonneg _)
        have h3 : (1 / 2 + 1 / 2 ^ 40 + 2 : ℚ) ≤ 4 := by norm_num
        linarith
      have hq49 : |q| * 10 ^ p ≤ 2 ^ 49 := by
        have h2 : |q| * (10 ^ p * 10) ≤ |q| * 10 ^ p' := mul_le_mul_of_nonneg_left hten ha
        have h3 : (2 : ℚ) ^ 51 ≤ 2 ^ 49 * 10 := by norm_num
        linarith
      simp [f8IsI8, npRound_close htr hq49 hclose, F64.trunc, F64.beq]
    | inf s =>
      have h0 : (0 : ℚ) < 10 ^ p := by positivity
      cases s <;> simp [f8IsI8, npRound, F64.mul, F64.rint, F64.div, F64.trunc, F64.beq, h0, h0.ne', h0.le, h0.not_gt]
    | nan => simp [f8IsI8, F64.trunc, F64.beq] at h
  · exact h

/-- **C142**, where it holds: numbers whose digits that count fit into 51 bits. -/
theorem C142_array_partial {arr : List F64} {p p' : Nat} (hp : p ≤ p') (hp' : p' ≤ 15)
    (hx : ∀ q, F64.fin q ∈ arr → |q| * 10 ^ p' ≤ 2 ^ 51) (h : f8IsI8 arr p' = true) : f8IsI8 arr p = true := by
  have one : ∀ (p : Nat), f8IsI8 arr p = true ↔ ∀ x ∈ arr, f8IsI8 [x] p = true := by
    intro p
    simp [f8IsI8]
  rw [one] at h ⊢
  exact fun x hm => whole_fewer hp hp' (fun q e => hx q (e ▸ hm)) (h x hm)

/-- **C142** for whole numbers: up to `2 ^ 53 / 5 ^ p'` they count as integers with `p'` digits and with fewer. -/
theorem C142_whole_partial {p p' : Nat} (hp : p ≤ p') (hp' : p' ≤ 22) (ns : List ℤ) (h : ∀ n ∈ ns, |n| * 5 ^ p' ≤ 2 ^ 53) :
    f8IsI8 (ns.map fun n : ℤ => F64.fin (n : ℚ)) p' = true ∧ f8IsI8 (ns.map fun n : ℤ => F64.fin (n : ℚ)) p = true :=
  ⟨C123_accepted_partial p' hp' ns h, C123_accepted_partial p (hp.trans hp') ns fun n hn =>
    (mul_le_mul_of_nonneg_left (pow_le_pow_right₀ (by norm_num) hp) (abs_nonneg n)).trans (h n hn)⟩

/-- **C142** for columns, where it holds: a column that is delivered as integers with `p'` digits is delivered as the same
integers with `p` digits, whatever is resolved.  Missing: larger numbers, see `C142_finding`. -/
theorem C142_column_partial (env : Env) (o : ConcatOpts) {p p' : Nat} (hp : p ≤ p') (hp' : p' ≤ 15)
    (cells : List (Option Val)) (hx : ∀ q, some (Val.f8 (.fin q)) ∈ resolved env o cells → |q| * 10 ^ p' ≤ 2 ^ 51)
    (h : (fetched env { o with prec := p' } cells).dtype = .i8) :
    fetched env { o with prec := p } cells = fetched env { o with prec := p' } cells := by
  have hres : ∀ n, resolved env { o with prec := n } cells = resolved env o cells := by
    intro n
    rfl
  unfold fetched materialise at h ⊢
  simp only [hres] at h ⊢
  generalize resolved env o cells = c at h hx
  have ht : columnType p c = columnType p' c := by
    unfold columnType at h ⊢
    simp only at h ⊢
    split at h
    · cases h
    · split at h
      · cases h
      · split at h
        · rename_i h1 h2 h3
          rw [if_neg h1, if_neg h2, if_pos h3, if_neg h1, if_neg h2, if_pos h3]
          split at h
          · rename_i h4
            rw [if_pos h4, if_pos]
            rw [List.all_eq_true] at h4 ⊢
            intro v hv
            have := h4 v hv
            cases v with
            | none => rfl
            | some v =>
              cases v with
              | f8 x => exact whole_fewer hp hp' (fun q e => hx q (e ▸ hv)) this
              | _ => rfl
          · cases h
        · cases h
  rw [ht]

/-- Finding, C142: 2 882 303 761 519 is an integer with 6 digits and not with 5. -/
theorem C142_finding : f8IsI8 [.fin 2882303761519] 6 = true ∧ f8IsI8 [.fin 2882303761519] 5 = false := by decide +kernel

/-- For every number of digits from 1 to 14 there is a whole number that counts as an integer with one digit more and not
with this number of digits. -/
theorem C142_every_precision : ∀ t ∈ [((1 : Nat), (1801439850948201 : ℚ)), (2, 360287970189641), (3, 72057594037929), (4,
    14411518807587), (5, 2882303761519), (6, 576460752305), (7, 115292150463), (8, 23058430095), (9, 4611686021), (10,
    922337205), (11, 184467443), (12, 36893491), (13, 7378703), (14, 1475741)], f8IsI8 [.fin t.2] (t.1 + 1) = true ∧
    f8IsI8 [.fin t.2] t.1 = false := by
  decide +kernel

/-- Finding, C142, for whole files of both formats: with `float_precision=6` the column has integers, with 5 it has
doubles. -/
theorem C142_file_finding :
    ∀ z ∈ [(exLong 0x4284F8B588E37800 [2, 8, 8, 2, 3, 0, 3, 7, 6, 1, 5, 1, 9]).xlsx.entries,
        (exLong 0x4284F8B588E37800 [2, 8, 8, 2, 3, 0, 3, 7, 6, 1, 5, 1, 9]).xlsb.entries],
      exReadTwo z = .ok [.arr ⟨.i8, [some (.i8 123456789012), some (.i8 2882303761519)]⟩] ∧
      (readArchive textEnv exLib (fun _ => none) (fun _ _ => .ok false) exInt (fun s => [s]) { precision := 5 } z).map (·.arrays) =
        .ok [.arr ⟨.f8, [some (.f8 (.fin 123456789012)), some (.f8 (.fin 2882303761519))]⟩] := by
  decide +kernel

/-! ## Examples -/

example : f8IsI8 [.fin 7, rnd (70000001 / 10000000)] 6 = true ∧ f8IsI8 [.fin 7, rnd (70000001 / 10000000)] 3 = true ∧
    f8IsI8 [.fin 7, rnd (70000001 / 10000000)] 7 = false := by decide +kernel

example : (fetched demoEnv { confDt := false, confNum := false, formats := [], prec := 6 }
    [some (.f8 (.fin 7)), none, some (.f8 (rnd (70000001 / 10000000)))]).dtype = .i8 := by decide +kernel

end Rxls
