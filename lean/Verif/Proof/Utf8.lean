import Verif.Model.Fmt
/-!
# UTF-8

The validator of `Model/Fmt` against Lean's own encoding of characters (`String.utf8EncodeChar`).
-/
namespace Perf

/-- The UTF-8 bytes of a character (Lean core's encoder). -/
def charBytes (c : Char) : List Byte := (String.utf8EncodeChar c).map UInt8.toBitVec

/-- The four lengths of `charBytes`, with the bytes as numbers. -/
theorem charBytes_cases (c : Char) :
    (c.val.toNat < 0x80 ∧ (charBytes c).map BitVec.toNat = [c.val.toNat]) ∨
    (0x80 ≤ c.val.toNat ∧ c.val.toNat < 0x800 ∧ (charBytes c).map BitVec.toNat = [0xc0 + c.val.toNat / 64, 0x80 + c.val.toNat % 64]) ∨
    (0x800 ≤ c.val.toNat ∧ c.val.toNat < 0x10000 ∧ (charBytes c).map BitVec.toNat =
      [0xe0 + c.val.toNat / 4096, 0x80 + c.val.toNat / 64 % 64, 0x80 + c.val.toNat % 64]) ∨
    (0x10000 ≤ c.val.toNat ∧ c.val.toNat < 0x110000 ∧ (charBytes c).map BitVec.toNat =
      [0xf0 + c.val.toNat / 262144, 0x80 + c.val.toNat / 4096 % 64, 0x80 + c.val.toNat / 64 % 64, 0x80 + c.val.toNat % 64]) := by
  have hv : c.val.toNat < 0x110000 := by
    have := c.valid
    simp only [UInt32.isValidChar, Nat.isValidChar] at this
    omega
  unfold charBytes String.utf8EncodeChar
  simp only
  generalize c.val.toNat = v at *
  split
  · left; simp; omega
  · split
    · right; left; simp; omega
    · split
      · right; right; left; simp; omega
      · right; right; right; simp; omega

/-- A list of bytes given by its numbers. -/
theorem bytes_of_toNat {xs ys : List Byte} (h : xs.map BitVec.toNat = ys.map BitVec.toNat) : xs = ys := by
  induction xs generalizing ys with
  | nil => cases ys with
    | nil => rfl
    | cons y ys => simp at h
  | cons x xs ih => cases ys with
    | nil => simp at h
    | cons y ys =>
      simp only [List.map_cons, List.cons.injEq] at h
      rw [BitVec.eq_of_toNat_eq h.1, ih h.2]

/-- A scalar value as a character. -/
theorem exists_char {v : Nat} (h : v < 0xd800 ∨ (0xdfff < v ∧ v < 0x110000)) : ∃ c : Char, c.val.toNat = v := by
  have hv : v.isValidChar := h
  refine ⟨Char.ofNat v, ?_⟩
  rw [Char.ofNat, dif_pos hv]
  simp [Char.ofNatAux]

theorem charBytes_scalar (c : Char) : c.val.toNat < 0xd800 ∨ (0xdfff < c.val.toNat ∧ c.val.toNat < 0x110000) := c.valid

theorem charBytes_ne (c : Char) : charBytes c ≠ [] := by
  intro h
  rcases charBytes_cases c with ⟨_, h1⟩ | ⟨_, _, h1⟩ | ⟨_, _, h1⟩ | ⟨_, _, h1⟩ <;> rw [h] at h1 <;> simp at h1

/-- An accepted sequence is the encoding of a character. -/
theorem utf8Step_sound {b : Byte} {rest : List Byte} {w : Nat} (h : utf8Step b rest = .char w) :
    w ≤ rest.length + 1 ∧ ∃ c, charBytes c = (b :: rest).take w := by
  have hb := b.isLt
  unfold utf8Step at h
  split at h
  · rename_i h1
    cases h
    refine ⟨by omega, ?_⟩
    obtain ⟨c, hc⟩ := exists_char (v := b.toNat) (by omega)
    refine ⟨c, bytes_of_toNat ?_⟩
    rcases charBytes_cases c with ⟨_, h⟩ | ⟨_, _, h⟩ | ⟨_, _, h⟩ | ⟨_, _, h⟩ <;> rw [hc] at h <;> first | omega | (rw [h]; simp)
  · split at h
    · rename_i h1 h2
      rcases rest with _ | ⟨x, rest⟩
      · cases h
      · have hx := x.isLt
        simp only at h
        split at h <;> cases h
        rename_i h3
        simp [isCont] at h3
        refine ⟨by simp, ?_⟩
        obtain ⟨c, hc⟩ := exists_char (v := (b.toNat - 0xc0) * 64 + (x.toNat - 0x80)) (by omega)
        refine ⟨c, bytes_of_toNat ?_⟩
        rcases charBytes_cases c with ⟨_, h⟩ | ⟨_, _, h⟩ | ⟨_, _, h⟩ | ⟨_, _, h⟩ <;> rw [hc] at h <;> first | omega | (rw [h]; simp; omega)
    · split at h
      · rename_i h1 h2 h3
        rcases rest with _ | ⟨x, rest⟩
        · cases h
        · have hx := x.isLt
          simp only at h
          split at h
          · cases h
          · rename_i h4
            simp [second3] at h4
            rcases rest with _ | ⟨y, rest⟩
            · cases h
            · have hy := y.isLt
              simp only at h
              split at h <;> cases h
              rename_i h5
              simp [isCont] at h5
              refine ⟨by simp, ?_⟩
              obtain ⟨c, hc⟩ := exists_char (v := (b.toNat - 0xe0) * 4096 + (x.toNat - 0x80) * 64 + (y.toNat - 0x80)) (by omega)
              refine ⟨c, bytes_of_toNat ?_⟩
              rcases charBytes_cases c with ⟨_, h⟩ | ⟨_, _, h⟩ | ⟨_, _, h⟩ | ⟨_, _, h⟩ <;> rw [hc] at h <;>
                first | omega | (rw [h]; simp; omega)
      · split at h
        · rename_i h1 h2 h3 h4
          rcases rest with _ | ⟨x, rest⟩
          · cases h
          · have hx := x.isLt
            simp only at h
            split at h
            · cases h
            · rename_i h5
              simp [second4] at h5
              rcases rest with _ | ⟨y, rest⟩
              · cases h
              · have hy := y.isLt
                simp only at h
                split at h
                · cases h
                · rename_i h6
                  simp [isCont] at h6
                  rcases rest with _ | ⟨z, rest⟩
                  · cases h
                  · have hz := z.isLt
                    simp only at h
                    split at h <;> cases h
                    rename_i h7
                    simp [isCont] at h7
                    refine ⟨by simp, ?_⟩
                    obtain ⟨c, hc⟩ := exists_char
                      (v := (b.toNat - 0xf0) * 262144 + (x.toNat - 0x80) * 4096 + (y.toNat - 0x80) * 64 + (z.toNat - 0x80)) (by omega)
                    refine ⟨c, bytes_of_toNat ?_⟩
                    rcases charBytes_cases c with ⟨_, h⟩ | ⟨_, _, h⟩ | ⟨_, _, h⟩ | ⟨_, _, h⟩ <;> rw [hc] at h <;>
                      first | omega | (rw [h]; simp; omega)
        · cases h

/-- The bytes of a character, as a list of the right length. -/
theorem charBytes_shape (c : Char) :
    (∃ b : Byte, charBytes c = [b] ∧ b.toNat < 0x80) ∨
    (∃ b x : Byte, charBytes c = [b, x] ∧ 0xc2 ≤ b.toNat ∧ b.toNat ≤ 0xdf ∧ isCont x = true) ∨
    (∃ b x y : Byte, charBytes c = [b, x, y] ∧ 0xe0 ≤ b.toNat ∧ b.toNat ≤ 0xef ∧ second3 b.toNat x.toNat = true ∧ isCont y = true) ∨
    (∃ b x y z : Byte, charBytes c = [b, x, y, z] ∧ 0xf0 ≤ b.toNat ∧ b.toNat ≤ 0xf4 ∧ second4 b.toNat x.toNat = true ∧
      isCont y = true ∧ isCont z = true) := by
  have hs := charBytes_scalar c
  have hv : c.toNat = c.val.toNat := rfl
  rcases charBytes_cases c with ⟨h1, h2⟩ | ⟨h0, h1, h2⟩ | ⟨h0, h1, h2⟩ | ⟨h0, h1, h2⟩ <;>
    rcases hc : charBytes c with _ | ⟨b, _ | ⟨x, _ | ⟨y, _ | ⟨z, _ | ⟨u, l⟩⟩⟩⟩⟩ <;> rw [hc] at h2 <;> simp at h2
  · exact .inl ⟨b, rfl, by omega⟩
  · exact .inr (.inl ⟨b, x, rfl, by omega, by omega, by simp [isCont]; omega⟩)
  · exact .inr (.inr (.inl ⟨b, x, y, rfl, by omega, by omega, by simp [second3]; omega, by simp [isCont]; omega⟩))
  · exact .inr (.inr (.inr ⟨b, x, y, z, rfl, by omega, by omega, by simp [second4]; omega, by simp [isCont]; omega, by simp [isCont]; omega⟩))

/-- The encoding of any character is accepted. -/
theorem utf8Step_complete (c : Char) {b : Byte} {rest tl : List Byte} (h : b :: rest = charBytes c ++ tl) :
    utf8Step b rest = .char (charBytes c).length := by
  unfold utf8Step
  rcases charBytes_shape c with ⟨b', h1, h2⟩ | ⟨b', x, h1, h2, h3, h4⟩ | ⟨b', x, y, h1, h2, h3, h4, h5⟩ | ⟨b', x, y, z, h1, h2, h3, h4, h5, h6⟩ <;>
    rw [h1] at h ⊢ <;> simp only [List.cons_append, List.nil_append, List.cons.injEq] at h <;> obtain ⟨rfl, rfl⟩ := h
  · rw [if_pos h2]; rfl
  · rw [if_neg (by omega), if_pos ⟨h2, h3⟩]
    simp only [h4, if_true, List.length_cons, List.length_nil]
  · rw [if_neg (by omega), if_neg (by omega), if_pos ⟨h2, h3⟩]
    simp [h4, h5]
  · rw [if_neg (by omega), if_neg (by omega), if_neg (by omega), if_pos ⟨h2, h3⟩]
    simp [h4, h5, h6]

/-- A rejected sequence: how long it is, and what its bytes look like. -/
theorem utf8Step_bad {b : Byte} {rest : List Byte} {e : Option Nat} (h : utf8Step b rest = .bad e) :
    1 ≤ e.getD (rest.length + 1) ∧ e.getD (rest.length + 1) ≤ rest.length + 1 ∧ 0x80 ≤ b.toNat ∧
    ∀ x ∈ rest.take (e.getD (rest.length + 1) - 1), isCont x = true := by
  have h3 : ∀ {f s : Nat} {x : Byte}, x.toNat = s → second3 f s = true → isCont x = true := by
    intro f s x hx h; simp [second3] at h; simp [isCont]; omega
  have h4 : ∀ {f s : Nat} {x : Byte}, x.toNat = s → second4 f s = true → isCont x = true := by
    intro f s x hx h; simp [second4] at h; simp [isCont]; omega
  unfold utf8Step at h
  split at h
  · cases h
  · rename_i hb
    have hb : 0x80 ≤ b.toNat := by omega
    split at h
    · rcases rest with _ | ⟨x, rest⟩
      · cases h; simpa using hb
      · simp only at h
        split at h <;> cases h
        simpa using hb
    · split at h
      · rcases rest with _ | ⟨x, rest⟩
        · cases h; simpa using hb
        · simp only at h
          split at h
          · cases h; simpa using hb
          · rename_i hx
            have hx := h3 rfl (by simpa using hx)
            rcases rest with _ | ⟨y, rest⟩
            · cases h; simpa using ⟨hb, hx⟩
            · simp only at h
              split at h <;> cases h
              simpa using ⟨hb, hx⟩
      · split at h
        · rcases rest with _ | ⟨x, rest⟩
          · cases h; simpa using hb
          · simp only at h
            split at h
            · cases h; simpa using hb
            · rename_i hx
              have hx := h4 rfl (by simpa using hx)
              rcases rest with _ | ⟨y, rest⟩
              · cases h; simpa using ⟨hb, hx⟩
              · simp only at h
                split at h
                · cases h; simpa using ⟨hb, hx⟩
                · rename_i hy
                  have hy : isCont y = true := by simpa using hy
                  rcases rest with _ | ⟨z, rest⟩
                  · cases h; simpa using ⟨hb, hx, hy⟩
                  · simp only at h
                    split at h <;> cases h
                    simpa using ⟨hb, hx, hy⟩
        · cases h; simpa using hb

/-- No character starts with a continuation byte. -/
theorem charBytes_not_cont {c : Char} {b : Byte} {l tl : List Byte} (hb : isCont b = true) : b :: l ≠ charBytes c ++ tl := by
  intro h
  simp [isCont] at hb
  rcases charBytes_shape c with ⟨b', h1, h2⟩ | ⟨b', x, h1, h2, h3, h4⟩ | ⟨b', x, y, h1, h2, h3, h4, h5⟩ | ⟨b', x, y, z, h1, h2, h3, h4, h5, h6⟩ <;>
    rw [h1] at h <;> simp only [List.cons_append, List.cons.injEq] at h <;> obtain ⟨rfl, -⟩ := h <;> omega

/-! ## `from_utf8` -/

/-- What `from_utf8` says, in terms of encodings of characters. -/
theorem fromUtf8_spec : ∀ (fuel done : Nat) (data : List Byte), data.length ≤ fuel →
    (fromUtf8 fuel done data = none ∧ ∃ cs : List Char, data = cs.flatMap charBytes) ∨
    ∃ (cs : List Char) (b : Byte) (rest : List Byte) (e : Option Nat), data = cs.flatMap charBytes ++ b :: rest ∧ utf8Step b rest = .bad e ∧
      fromUtf8 fuel done data = some (done + (cs.flatMap charBytes).length, e) := by
  intro fuel
  induction fuel with
  | zero =>
    intro done data h
    cases data with
    | nil => exact .inl ⟨rfl, [], rfl⟩
    | cons b rest => simp at h
  | succ fuel ih =>
    intro done data h
    cases data with
    | nil => exact .inl ⟨rfl, [], rfl⟩
    | cons b rest =>
      rcases hs : utf8Step b rest with w | e
      · obtain ⟨h1, c, hc⟩ := utf8Step_sound hs
        have hw : w = (charBytes c).length := by rw [hc, List.length_take]; simp; omega
        have hpos : 0 < w := by rw [hw]; exact List.length_pos_iff.2 (charBytes_ne c)
        have hd : b :: rest = charBytes c ++ (b :: rest).drop w := by rw [hc, List.take_append_drop]
        have hf : fromUtf8 (fuel + 1) done (b :: rest) = fromUtf8 fuel (done + w) ((b :: rest).drop w) := by
          rw [fromUtf8, hs]
        rcases ih (done + w) ((b :: rest).drop w) (by simp at h ⊢; omega) with ⟨h2, cs, h3⟩ | ⟨cs, b', rest', e, h2, h3, h4⟩
        · exact .inl ⟨by rw [hf, h2], c :: cs, by rw [hd, h3]; simp⟩
        · refine .inr ⟨c :: cs, b', rest', e, by rw [hd, h2]; simp, h3, ?_⟩
          rw [hf, h4, hw]
          simp [Nat.add_assoc]
      · exact .inr ⟨[], b, rest, e, rfl, hs, by rw [fromUtf8, hs]; simp⟩

end Perf
