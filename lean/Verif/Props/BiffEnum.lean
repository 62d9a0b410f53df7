import Verif.Lemmas.BiffEnum

/-! # Property C08: the record name table -/

namespace Rxls

/-- C08.  All 845 ids of the table are distinct. -/
theorem C08_ids_distinct : (biffEnum.map Prod.snd).Pairwise (· < ·) ∧ biffEnum.length = 845 := by
  exact ⟨biffEnum_ascending, by decide +kernel⟩

/-- C08.  All ids of the table fit the wire format, and none is negative for the accelerated
scanner. -/
theorem C08_ids_encodable : ∀ e ∈ biffEnum, EncodableId e.2 ∧ e.2 < 0x8000 := by
  have : ∀ n ∈ biffEnum.map Prod.snd, EncodableId n ∧ n < 0x8000 := by decide +kernel
  intro e he
  exact this e.2 (List.mem_map_of_mem he)

/-- C08.  A record made from a table name has that name, carries the concatenated parts, and (below
the size limit) survives writing and scanning with either scanner. -/
theorem C08_name_roundtrip (name : String) (parts : List Bytes) (r : Record)
    (h : Record.fromName name parts = .ok r) :
    recName r.recId = name ∧ r.data = parts.flatten ∧
    (r.data.length < 2 ^ 29 → ∃ w, r.asBinary = .ok w ∧ scanBiff none w = [r] ∧
      ∀ n, w.length + 2 ≤ n → numbaRun numbaBlock none n [] w = ([r], true)) := by
  unfold Record.fromName biffEnumGet at h
  cases hf : biffEnum.find? (fun e => e.1 == name) with
  | none => simp [hf, bind, Except.bind] at h
  | some e =>
    have he := List.mem_of_find?_eq_some hf
    have hn : e.1 = name := by simpa using List.find?_some hf
    simp only [hf, bind, Except.bind] at h
    injection h with h
    have hid : r.recId = e.2 := by
      rw [← h, Record.fromData]; split <;> rfl
    have hd : r.data = parts.flatten := by
      rw [← h, Record.fromData]
      split
      · rename_i hp
        have : parts = [] := by simpa using hp
        subst this; rfl
      · rfl
    refine ⟨by rw [hid, recName_of_mem he, hn], hd, ?_⟩
    intro hlen
    have henc : Encodable r := ⟨by rw [hid]; exact (C08_ids_encodable e he).1, hlen⟩
    obtain ⟨a, b, _, _, hw⟩ := asBinary_ok henc
    have hall : encodeAll [r] = .ok (a ++ b ++ r.data) := by
      simp [encodeAll, hw, bind, Except.bind]
    refine ⟨_, hw, ?_, ?_⟩
    · have := scanBiff_encodeAll [r] hall none []
      rw [List.append_nil, scanBiff_nil] at this
      simpa [selectedPlain] using this
    · intro n hn'
      rw [numba_whole numbaBlock (by decide) none [r] _ hall (by
        intro r' hr'
        obtain rfl : r' = r := by simpa using hr'
        rw [hid]; exact (C08_ids_encodable e he).2) n (by omega)]
      simp [selectedNumba]

/-- C08.  Every name of the table is accepted, any other name is a `KeyError`, and ids outside the
table are called `Undefined`. -/
theorem C08_name_domain (name : String) (parts : List Bytes) :
    ((∃ r, Record.fromName name parts = .ok r) ↔ name ∈ biffEnum.map Prod.fst) ∧
    (name ∉ biffEnum.map Prod.fst → Record.fromName name parts = .error .keyError) ∧
    (∀ id, id ∉ biffEnum.map Prod.snd → recName id = "Undefined") := by
  have key : ∀ e : Option (String × Nat), e = biffEnum.find? (fun e => e.1 == name) →
      (e = none ↔ name ∉ biffEnum.map Prod.fst) := by
    rintro e rfl
    rw [List.find?_eq_none]
    constructor
    · intro h hm
      obtain ⟨x, hx, rfl⟩ := List.mem_map.1 hm
      exact h x hx (by simp)
    · intro h x hx hxe
      exact h (List.mem_map.2 ⟨x, hx, by simpa using hxe⟩)
  have key := key _ rfl
  refine ⟨?_, ?_, ?_⟩
  · unfold Record.fromName biffEnumGet
    cases hf : biffEnum.find? (fun e => e.1 == name) with
    | none =>
      rw [hf] at key
      have : name ∉ biffEnum.map Prod.fst := key.1 rfl
      simp only [bind, Except.bind, this, iff_false]
      rintro ⟨r, hr⟩; cases hr
    | some e =>
      rw [hf] at key
      have : ¬ name ∉ biffEnum.map Prod.fst := fun h => by simpa using key.2 h
      simp only [bind, Except.bind]
      exact ⟨fun _ => not_not.1 this, fun _ => ⟨_, rfl⟩⟩
  · intro h
    unfold Record.fromName biffEnumGet
    rw [key.2 h]; rfl
  · intro id h
    unfold recName
    rw [List.find?_eq_none.2]
    intro x hx hxe
    exact h (List.mem_map.2 ⟨x, by simpa using hx, by simpa using hxe⟩)

example : Record.fromName "BrtEndSheetData" [[1], [2, 3]] = .ok ⟨402, [1, 2, 3]⟩ ∧
    recName 402 = "BrtEndSheetData" ∧ recName 13 = "Undefined" := by decide +kernel

end Rxls
