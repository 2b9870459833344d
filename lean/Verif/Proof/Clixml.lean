import Verif.Spec.Clixml
import Verif.Proof.SerializerSim

/-! # Documents and shells: lemmas -/

namespace Verif

theorem readStream_value (st : ClixmlStream) : readStream (some st.value) = st := by
  cases st <;> decide +kernel

theorem ofValue_some {s : PyStr} {st : ClixmlStream} : ClixmlStream.ofValue s = some st ↔ s = st.value := by
  constructor
  · intro h
    have := List.find?_some h
    simpa using (of_decide_eq_true this).symm
  · rintro rfl
    cases st <;> decide +kernel

theorem value_ne_nil (st : ClixmlStream) : st.value ≠ [] := by cases st <;> decide +kernel

theorem tagStream_stream (st : Option ClixmlStream) {x : Xml} (h : x.attrs.stream = none) :
    readStream (tagStream st x).attrs.stream = st.getD .output := by
  cases st with
  | none => show readStream x.attrs.stream = _; rw [h]; rfl
  | some st =>
    obtain ⟨t, a, tx, k⟩ := x
    exact readStream_value st

theorem deser_tagStream (E : TextEnv) (L : Lib) (m : Nat) (st : Option ClixmlStream) (x : Xml) (s : DState) :
    deser E L m (tagStream st x) s = deser E L m x s := by
  cases st with
  | none => rfl
  | some st => exact deser_setStream E L m st.value x s

theorem ser_stream {E : TextEnv} {H : Heap} {n : Nat} {v : PVal} {s s' : SState} {x : Xml}
    (h : ser E H n v s = .ok (x, s')) : x.attrs.stream = none := by
  cases n with
  | zero => cases h
  | succ n =>
    cases v with
    | nil => cases h; rfl
    | bool b => cases h; rfl
    | prim p => cases h; rfl
    | ref a =>
      change serObj E (ser E H n) a (H a) s = .ok (x, s') at h
      unfold serObj at h
      split at h
      · cases h; rfl
      · split at h
        · cases h; rfl
        · obtain ⟨_, _, _, _, _, _, _, _, rfl⟩ := serBody_ok h
          rfl

theorem lowerAscii_eq (s t : PyStr) : lowerAscii s = lowerAscii t ↔ CaseEq s t := by
  constructor
  · intro h
    induction s generalizing t with
    | nil =>
      cases t with
      | nil => exact .nil
      | cons d t => cases h
    | cons c s ih =>
      cases t with
      | nil => cases h
      | cons d t =>
        simp only [lowerAscii, List.map_cons, List.cons.injEq] at h
        refine .cons ?_ (ih t h.2)
        have h := h.1
        unfold SmallOf
        split at h <;> split at h <;> omega
  · intro h
    induction h with
    | nil => rfl
    | @cons c d s t h _ ih =>
      simp only [lowerAscii, List.map_cons, List.cons.injEq]
      refine ⟨?_, ih⟩
      unfold SmallOf at h
      split <;> split <;> omega

theorem lower_word (st : ClixmlStream) : lowerAscii st.word = st.value := by cases st <;> rfl

theorem lower_names (t : PyStr) (st : ClixmlStream) : lowerAscii t = st.value ↔ CaseEq t st.word := by
  rw [← lower_word, lowerAscii_eq]

theorem doc_sim {E : TextEnv} {L : Lib} {H : Heap} {S : Nat → Prop} (hE : ExtendsAscii E.uni) (std : L.Standard)
    (hg : GoodGraph E L H S) {n m : Nat} (hnm : n < m) : ∀ (vs : List (PVal × Option ClixmlStream)) (ss : SState)
    (xs : List Xml) (ss' : SState) (ds : DState) (φ : Nat → Option Nat),
    (∀ v ∈ vs, ∀ a, v.1 = .ref a → S a) → (∀ v ∈ vs, v.1.Ok E) → Inv L H S ss ds φ →
    serDoc E H n vs ss = .ok (xs, ss') →
    ∃ dvs ds' φ', readDoc E L m xs ds = .ok (dvs, ds') ∧ Step L H S none ss ds φ ss' ds' φ' ∧
      All2 (fun v d => VMatch φ' v.1 d.1 ∧ d.2 = v.2.getD .output) vs dvs := by
  intro vs
  induction vs with
  | nil =>
    intro ss xs ss' ds φ _ _ hi he
    cases he
    exact ⟨[], ds, φ, rfl, .refl hi, .nil⟩
  | cons v vs ih =>
    obtain ⟨v, st⟩ := v
    intro ss xs ss' ds φ hS hok hi he
    simp only [serDoc] at he
    cases h1 : ser E H n v ss with
    | error e => rw [h1] at he; cases he
    | ok r =>
      obtain ⟨x, s1⟩ := r
      rw [h1] at he
      dsimp only at he
      cases h2 : serDoc E H n vs s1 with
      | error e => rw [h2] at he; cases he
      | ok r =>
        obtain ⟨xs', s2⟩ := r
        rw [h2] at he
        cases he
        obtain ⟨dv, ds1, φ1, hd, st1, hm⟩ := sim_ser hE std hg n m hnm v ss x s1 ds φ (hS (v, st) (by simp))
          (hok (v, st) (by simp)) hi h1
        obtain ⟨dvs, ds2, φ2, hd2, st2, hm2⟩ := ih s1 xs' ss' ds1 φ1 (fun w hw => hS w (by simp [hw]))
          (fun w hw => hok w (by simp [hw])) st1.inv h2
        refine ⟨(dv, st.getD .output) :: dvs, ds2, φ2, ?_, st1.trans st2 (fun b h => by cases h),
          .cons ⟨hm.mono (st2.sub st1.inv), rfl⟩ hm2⟩
        simp only [readDoc, deser_tagStream, hd, hd2, tagStream_stream st (ser_stream h1)]

end Verif
