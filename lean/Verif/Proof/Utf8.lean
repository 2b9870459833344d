import Verif.Model.Wire
import Verif.Spec.StringEsc

/-! # UTF-8 comes back -/

namespace Verif

theorem byte_toNat {n : Nat} (h : n < 256) : (byte n).toNat = n := by
  unfold byte
  rw [UInt8.toNat_ofNat']
  exact Nat.mod_eq_of_lt h

theorem contBits_byte {n : Nat} (h : n < 64) : contBits (byte (0x80 + n)) = some n := by
  unfold contBits
  rw [byte_toNat (by omega), if_pos (by omega)]
  exact congrArg some (by omega)

/-- A character of UTF-8. -/
def Scalar (c : Nat) : Prop := isSurrogate c = false ∧ c ≤ 0x10FFFF

theorem scalar_xml {c : Nat} (h : IsXmlChar c) : Scalar c := by
  unfold Scalar isSurrogate
  unfold IsXmlChar at h
  rw [decide_eq_false_iff_not]
  omega

theorem utf8Next_char {c : Nat} (h : Scalar c) (s : Bytes) : utf8Next (utf8Char c ++ s) = some (c, s) := by
  obtain ⟨hs, hm⟩ := h
  unfold utf8Char
  split
  · have e := byte_toNat (n := c) (by omega)
    simp only [List.cons_append, List.nil_append, utf8Next, e]
    rw [if_pos (by omega)]
  · split
    · have e := byte_toNat (n := 0xC0 + c / 64) (by omega)
      simp only [List.cons_append, List.nil_append, utf8Next, e, contBits_byte (Nat.mod_lt c (by decide : 64 > 0))]
      rw [if_neg (by omega), if_neg (by omega), if_pos (by omega)]
      simp only [Option.map_some, Option.some.injEq, Prod.mk.injEq, and_true]
      omega
    · rw [hs]
      simp only [Bool.false_eq_true, if_false]
      split
      · have e := byte_toNat (n := 0xE0 + c / 4096) (by omega)
        have ev : ((0xE0 + c / 4096 - 0xE0) * 64 + c / 64 % 64) * 64 + c % 64 = c := by omega
        simp only [List.cons_append, List.nil_append, utf8Next, e, contBits_byte (Nat.mod_lt _ (by decide : 64 > 0)), ev]
        rw [if_neg (by omega), if_neg (by omega), if_neg (by omega), if_pos (by omega), if_neg]
        rw [hs]
        simp only [Bool.false_eq_true, or_false]
        omega
      · have e := byte_toNat (n := 0xF0 + c / 262144) (by omega)
        have ev : (((0xF0 + c / 262144 - 0xF0) * 64 + c / 4096 % 64) * 64 + c / 64 % 64) * 64 + c % 64 = c := by omega
        simp only [List.cons_append, List.nil_append, utf8Next, e, contBits_byte (Nat.mod_lt _ (by decide : 64 > 0)), ev]
        rw [if_neg (by omega), if_neg (by omega), if_neg (by omega), if_neg (by omega), if_pos (by omega), if_neg (by omega)]

theorem utf8Char_cons (c : Nat) : ∃ b s, utf8Char c = b :: s := by
  unfold utf8Char
  split
  · exact ⟨_, _, rfl⟩
  · split
    · exact ⟨_, _, rfl⟩
    · split
      · exact ⟨_, _, rfl⟩
      · split <;> exact ⟨_, _, rfl⟩

theorem utf8Chars_all : ∀ (t : PyStr), (∀ c ∈ t, Scalar c) → ∀ n, (t.flatMap utf8Char).length ≤ n →
    utf8Chars n (t.flatMap utf8Char) = some t
  | [], _, n, _ => by cases n <;> rfl
  | c :: t, h, n, hn => by
    obtain ⟨b, s, e⟩ := utf8Char_cons c
    have hnext := utf8Next_char (h c List.mem_cons_self) (t.flatMap utf8Char)
    rw [List.flatMap_cons] at hn ⊢
    rw [e] at hn hnext ⊢
    simp only [List.cons_append, List.length_cons, List.length_append] at hn hnext ⊢
    cases n with
    | zero => omega
    | succ n =>
      simp only [utf8Chars, hnext]
      rw [utf8Chars_all t (fun d hd => h d (List.mem_cons_of_mem _ hd)) n (by omega)]
      rfl

theorem utf8Decode_all (t : PyStr) (h : ∀ c ∈ t, Scalar c) : utf8Decode (t.flatMap utf8Char) = some t :=
  utf8Chars_all t h _ (Nat.le_refl _)

/-! ## Only that is read -/

theorem byte_eq {a : UInt8} {n : Nat} (h : n = a.toNat) : a = byte n := by
  subst h
  exact (UInt8.ofNat_toNat).symm

theorem contBits_some {b : UInt8} {n : Nat} (h : contBits b = some n) : n < 64 ∧ b.toNat = 0x80 + n := by
  unfold contBits at h
  split at h
  · rename_i hb
    have := Option.some.inj h
    omega
  · cases h

theorem utf8Next_only {b r : Bytes} {c : Nat} (h : utf8Next b = some (c, r)) : Scalar c ∧ b = utf8Char c ++ r := by
  cases b with
  | nil => cases h
  | cons a s =>
    have ha := a.toNat_lt
    have sur : ∀ {v : Nat}, v < 0xD800 ∨ 0xDFFF < v → isSurrogate v = false := by
      intro v hv
      unfold isSurrogate
      rw [decide_eq_false_iff_not]
      omega
    simp only [utf8Next] at h
    by_cases h1 : a.toNat < 0x80
    · rw [if_pos h1] at h
      cases h
      refine ⟨⟨sur (by omega), by omega⟩, ?_⟩
      unfold utf8Char
      rw [if_pos h1, ← byte_eq rfl]
      rfl
    rw [if_neg h1] at h
    by_cases h2 : a.toNat < 0xC2
    · rw [if_pos h2] at h; cases h
    rw [if_neg h2] at h
    by_cases h3 : a.toNat < 0xE0
    · rw [if_pos h3] at h
      cases s with
      | nil => cases h
      | cons b s =>
        dsimp only at h
        cases hb : contBits b with
        | none => rw [hb] at h; cases h
        | some v =>
          rw [hb] at h
          cases h
          obtain ⟨g1, g2⟩ := contBits_some hb
          refine ⟨⟨sur (by omega), by omega⟩, ?_⟩
          unfold utf8Char
          rw [if_neg (by omega), if_pos (by omega), ← byte_eq (a := a) (by omega), ← byte_eq (a := b) (by omega)]
          rfl
    rw [if_neg h3] at h
    by_cases h4 : a.toNat < 0xF0
    · rw [if_pos h4] at h
      rcases s with _ | ⟨b, _ | ⟨c', s⟩⟩
      · cases h
      · cases h
      · dsimp only at h
        cases hb : contBits b with
        | none => rw [hb] at h; cases h
        | some v =>
          cases hc : contBits c' with
          | none => rw [hb, hc] at h; cases h
          | some w =>
            rw [hb, hc] at h
            dsimp only at h
            split at h
            · cases h
            · rename_i hs
              cases h
              obtain ⟨g1, g2⟩ := contBits_some hb
              obtain ⟨g3, g4⟩ := contBits_some hc
              have hs' : isSurrogate (((a.toNat - 0xE0) * 64 + v) * 64 + w) = false := by
                cases e : isSurrogate (((a.toNat - 0xE0) * 64 + v) * 64 + w) with
                | false => rfl
                | true => exact absurd (.inr e) hs
              have hs := fun h => hs (.inl h)
              refine ⟨⟨hs', by omega⟩, ?_⟩
              unfold utf8Char
              rw [hs', if_neg (by omega), if_neg (by omega), if_neg (by simp), if_pos (by omega),
                ← byte_eq (a := a) (by omega), ← byte_eq (a := b) (by omega), ← byte_eq (a := c') (by omega)]
              rfl
    rw [if_neg h4] at h
    by_cases h5 : a.toNat < 0xF5
    · rw [if_pos h5] at h
      rcases s with _ | ⟨b, _ | ⟨c', _ | ⟨d, s⟩⟩⟩
      · cases h
      · cases h
      · cases h
      · dsimp only at h
        cases hb : contBits b with
        | none => rw [hb] at h; cases h
        | some v =>
          cases hc : contBits c' with
          | none => rw [hb, hc] at h; cases h
          | some w =>
            cases hd : contBits d with
            | none => rw [hb, hc, hd] at h; cases h
            | some z =>
              rw [hb, hc, hd] at h
              dsimp only at h
              split at h
              · cases h
              · rename_i hs
                cases h
                obtain ⟨g1, g2⟩ := contBits_some hb
                obtain ⟨g3, g4⟩ := contBits_some hc
                obtain ⟨g5, g6⟩ := contBits_some hd
                refine ⟨⟨sur (by omega), by omega⟩, ?_⟩
                unfold utf8Char
                rw [sur (by omega), if_neg (by omega), if_neg (by omega), if_neg (by simp), if_neg (by omega),
                  ← byte_eq (a := a) (by omega), ← byte_eq (a := b) (by omega), ← byte_eq (a := c') (by omega),
                  ← byte_eq (a := d) (by omega)]
                rfl
    · rw [if_neg h5] at h; cases h

theorem utf8Chars_only : ∀ (n : Nat) (b : Bytes) (t : PyStr), utf8Chars n b = some t → (∀ c ∈ t, Scalar c) ∧ b = t.flatMap utf8Char
  | n, [], t, h => by
    have : t = [] := by cases n <;> exact (Option.some.inj h).symm
    subst this
    exact ⟨(fun c hc => by cases hc), rfl⟩
  | 0, _ :: _, t, h => by simp only [utf8Chars] at h; cases h
  | n + 1, b :: bs, t, h => by
    simp only [utf8Chars] at h
    cases e : utf8Next (b :: bs) with
    | none => rw [e] at h; cases h
    | some q =>
      obtain ⟨c, r⟩ := q
      rw [e] at h
      dsimp only at h
      cases e' : utf8Chars n r with
      | none => rw [e'] at h; cases h
      | some t' =>
        rw [e'] at h
        cases h
        obtain ⟨h1, h2⟩ := utf8Next_only e
        obtain ⟨h3, h4⟩ := utf8Chars_only n r t' e'
        refine ⟨fun d hd => ?_, ?_⟩
        · rcases List.mem_cons.mp hd with rfl | hd
          · exact h1
          · exact h3 d hd
        · rw [h2, h4, List.flatMap_cons]

theorem utf8Decode_only {b : Bytes} {t : PyStr} (h : utf8Decode b = some t) : (∀ c ∈ t, Scalar c) ∧ b = t.flatMap utf8Char :=
  utf8Chars_only _ _ _ h

/-! ## Lean's own UTF-8 -/

theorem char_scalar (c : Char) : Scalar c.toNat := by
  have := c.valid
  unfold Scalar isSurrogate
  rw [decide_eq_false_iff_not]
  unfold UInt32.isValidChar Nat.isValidChar at this
  unfold Char.toNat
  omega

theorem scalar_char {n : Nat} (h : Scalar n) : ∃ c : Char, c.toNat = n := by
  obtain ⟨h1, h2⟩ := h
  unfold isSurrogate at h1
  rw [decide_eq_false_iff_not] at h1
  have hv : n.isValidChar := by unfold Nat.isValidChar; omega
  refine ⟨Char.ofNatAux n hv, rfl⟩

theorem utf8Char_lean (c : Char) : utf8Char c.toNat = String.utf8EncodeChar c := by
  obtain ⟨h1, h2⟩ := char_scalar c
  unfold utf8Char String.utf8EncodeChar
  rw [h1]
  unfold Char.toNat at h2 ⊢
  generalize c.val.toNat = v at *
  simp only [Bool.false_eq_true, if_false, byte]
  by_cases g1 : v < 0x80
  · rw [if_pos g1, if_pos (by omega)]
  by_cases g2 : v < 0x800
  · rw [if_neg g1, if_pos g2, if_neg (by omega), if_pos (by omega), Nat.add_comm 0xC0, Nat.add_comm 0x80,
      Nat.mod_eq_of_lt (a := v / 64) (b := 32) (by omega)]
  by_cases g3 : v < 0x10000
  · rw [if_neg g1, if_neg g2, if_pos g3, if_neg (by omega), if_neg (by omega), if_pos (by omega), Nat.add_comm 0xE0,
      Nat.add_comm 0x80, Nat.add_comm 0x80, Nat.mod_eq_of_lt (a := v / 4096) (b := 16) (by omega)]
  · rw [if_neg g1, if_neg g2, if_neg g3, if_neg (by omega), if_neg (by omega), if_neg (by omega), Nat.add_comm 0xF0,
      Nat.add_comm 0x80, Nat.add_comm 0x80, Nat.add_comm 0x80, Nat.mod_eq_of_lt (a := v / 262144) (b := 8) (by omega)]

end Verif
