import Verif.Py.Str
/-
Lemmas on string encoding and decoding.
-/

namespace Verif

theorem utf8Encode_eq (s : String) : utf8Encode s = s.toByteArray.data.toList := by
  have := @String.toByteArray_ofList s.toList
  rw [String.ofList_toList] at this
  rw [this, List.utf8Encode, List.toList_data_toByteArray, utf8Encode]

theorem utf8Decode_encode (s : String) : utf8Decode (utf8Encode s) = .ok s := by
  unfold utf8Decode String.fromUTF8?
  rw [utf8Encode_eq]
  have h : (⟨s.toByteArray.data.toList.toArray⟩ : ByteArray) = s.toByteArray := by
    rw [Array.toArray_toList]
  rw [h, dif_pos s.isValidUTF8]
  rfl

theorem utf8Encode_of_decode {b : Bytes} {s : String} (h : utf8Decode b = .ok s) :
    utf8Encode s = b := by
  unfold utf8Decode String.fromUTF8? at h
  split at h
  · rename_i s' h'
    split at h'
    · simp only [Option.some.injEq] at h'
      simp only [Except.ok.injEq] at h
      subst h; subst h'
      rw [utf8Encode_eq]; rfl
    · simp at h'
  · simp at h

theorem utf8Encode_inj {s t : String} (h : utf8Encode s = utf8Encode t) : s = t := by
  have := utf8Decode_encode s
  rw [h, utf8Decode_encode] at this
  simpa using this.symm

theorem char_ofNat_toNat_lt {n : Nat} (h : n < 128) : (Char.ofNat n).toNat = n := by
  have : n.isValidChar := by left; omega
  simp [Char.ofNat, this, Char.toNat, Char.ofNatAux, UInt32.toNat]

theorem asciiEncode_decode {b : Bytes} {s : String} (h : asciiDecode b = .ok s) :
    asciiEncode s = .ok b := by
  unfold asciiDecode at h
  split at h
  · rename_i hb
    rw [List.all_eq_true] at hb
    simp only [Except.ok.injEq] at h
    subst h
    have hlt : ∀ c ∈ b, c.toNat < 128 := fun c hc => by
      have := hb c hc
      simpa [UInt8.lt_iff_toNat_lt] using this
    unfold asciiEncode
    rw [String.toList_ofList, if_pos]
    · rw [List.map_map]
      congr 1
      conv => rhs; rw [← List.map_id b]
      apply List.map_congr_left
      intro c hc
      simp [char_ofNat_toNat_lt (hlt c hc)]
    · rw [List.all_eq_true]
      intro c hc
      obtain ⟨x, hx, rfl⟩ := List.mem_map.mp hc
      simp [char_ofNat_toNat_lt (hlt x hx), hlt x hx]
  · simp at h

theorem asciiDecode_of_lt {b : Bytes} (h : ∀ c ∈ b, c < 128) : ∃ s, asciiDecode b = .ok s := by
  unfold asciiDecode
  rw [if_pos (List.all_eq_true.mpr (by simpa using h))]
  exact ⟨_, rfl⟩

theorem asciiEncode_utf8 {s : String} {b : Bytes} (h : asciiEncode s = .ok b) :
    utf8Encode s = b ∧ ∀ c ∈ b, c < 128 := by
  unfold asciiEncode at h
  split at h
  · rename_i hs
    rw [List.all_eq_true] at hs
    simp only [Except.ok.injEq] at h
    subst h
    unfold utf8Encode
    constructor
    · generalize s.toList = l at *
      induction l with
      | nil => rfl
      | cons c l ih =>
        have hc := hs c (by simp)
        simp only [decide_eq_true_eq] at hc
        rw [List.flatMap_cons, List.map_cons, ih (fun x hx => hs x (by simp [hx]))]
        have : String.utf8EncodeChar c = [UInt8.ofNat c.toNat] := by
          unfold String.utf8EncodeChar
          have : c.val.toNat ≤ 127 := by have : c.toNat = c.val.toNat := rfl; omega
          simp only [this, if_true]
          rfl
        rw [this]; rfl
    · intro x hx
      obtain ⟨c, hc, rfl⟩ := List.mem_map.mp hx
      have := hs c hc
      simp only [decide_eq_true_eq] at this
      rw [UInt8.lt_iff_toNat_lt, UInt8.toNat_ofNat']
      have : (128 : UInt8).toNat = 128 := rfl
      omega
  · simp at h

end Verif
