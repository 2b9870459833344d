import Verif.Spec.Messages
import Verif.Proof.Events
import Verif.Proof.Forms

/-! # The data of messages -/

namespace Verif

/-- A name that is written as it is. -/
def Bareword (s : PyStr) : Prop := ∀ c ∈ s, 32 ≤ c ∧ c ≤ 126 ∧ c ≠ 95

instance (s : PyStr) : Decidable (Bareword s) := by unfold Bareword; infer_instance

theorem esc_plain {s u : PyStr} (h : Esc s u) (hs : Bareword s) : u = s := by
  induction h with
  | nil => rfl
  | plain _ _ _ _ ih => rw [ih fun c hc => hs c (by simp [hc])]
  | under => exact absurd rfl (hs 95 (by simp)).2.2
  | @unit c _ _ _ hc _ _ _ =>
    have := hs c (by simp)
    unfold Hidden IsControl IsHigh IsLow at hc
    omega
  | @pair u v s _ _ _ hu hv _ _ _ _ =>
    have := hs (0x10000 + 0x400 * (u - 0xD800) + (v - 0xDC00)) (by simp)
    omega

theorem Bareword.sound {s : PyStr} (h : Bareword s) : Sound s := by
  refine ⟨fun c hc => ?_, ?_⟩
  · have := h c hc; omega
  · intro hb
    unfold HasBareHigh at hb
    obtain ⟨c, hc, h1⟩ := hb
    have := h c hc
    omega

theorem Bareword.serialize {s : PyStr} (h : Bareword s) : serializeString s = s :=
  esc_plain (esc_serialize s h.sound) h

/-- A property of the object that is made for a message, and the field it is. -/
def Goes (E : TextEnv) (objs : List PVal) (q : PyStr × PVal) (r : PyStr × Field) : Prop :=
  q.1 = r.1 ∧ Bareword q.1 ∧ (q.2 ∈ objs ∨ q.2.IsPlain ∧ q.2.Formal E) ∧ ∀ H x t, Form H q.2 x t → FieldText H x r.2 t

variable {E : TextEnv} {objs : List PVal} {n : PyStr}

theorem goes_object (hn : Bareword n) {v : PVal} (h : v ∈ objs) : Goes E objs (n, v) (n, .object v) :=
  ⟨rfl, hn, .inl h, fun _ _ _ h => .object h⟩

theorem goes_null (hn : Bareword n) : Goes E objs (n, .nil) (n, .null) :=
  ⟨rfl, hn, .inr ⟨trivial, trivial⟩, fun _ _ _ h => by cases h; exact .null⟩

theorem goes_flag (hn : Bareword n) (b : Bool) : Goes E objs (n, .bool b) (n, .flag b) :=
  ⟨rfl, hn, .inr ⟨trivial, trivial⟩, fun _ _ _ h => by cases h <;> constructor⟩

theorem goes_prim (hn : Bareword n) {p : Prim} {f : Field} (hp : p.Formal E)
    (h : ∀ H x m t, p.Form m t → FieldText H x f (element m x t)) : Goes E objs (n, .prim p) (n, f) :=
  ⟨rfl, hn, .inr ⟨trivial, hp⟩, fun _ _ _ hf => by cases hf with | prim hf => exact h _ _ _ _ hf⟩

theorem goes_int32 (hn : Bareword n) (v : Int) : Goes E objs (n, .prim (.int .psInt v)) (n, .int32 v) :=
  goes_prim hn trivial fun _ _ _ _ h => by obtain ⟨rfl, h⟩ := h; exact .int32 h

theorem goes_int64 (hn : Bareword n) (v : Int) : Goes E objs (n, .prim (.int .psInt64 v)) (n, .int64 v) :=
  goes_prim hn trivial fun _ _ _ _ h => by obtain ⟨rfl, h⟩ := h; exact .int64 h

theorem goes_uint32 (hn : Bareword n) (v : Int) : Goes E objs (n, .prim (.int .psUInt v)) (n, .uint32 v) :=
  goes_prim hn trivial fun _ _ _ _ h => by obtain ⟨rfl, h⟩ := h; exact .uint32 h

theorem goes_version (hn : Bareword n) {v : PSVersion} (hv : v.WellFormed) : Goes E objs (n, .prim (.version v)) (n, .version v) :=
  goes_prim hn hv fun _ _ _ _ h => by obtain ⟨rfl, h⟩ := h; exact .version h

theorem goes_bytes (hn : Bareword n) (b : Bytes) : Goes E objs (n, .prim (.bytes b)) (n, .bytes b) :=
  goes_prim hn trivial fun _ _ _ _ h => by obtain ⟨rfl, h⟩ := h; exact .bytes h

theorem goes_number (hn : Bareword n) {v : Int} (h1 : -(2 ^ 31) ≤ v) (h2 : v < 2 ^ 63) :
    Goes E objs (n, .prim (.plainInt v)) (n, .number v) :=
  goes_prim hn ⟨h1, h2⟩ fun _ _ _ _ h => by
    obtain ⟨⟨_, h4, rfl⟩ | ⟨h3, _, rfl⟩, h⟩ := h
    · refine .number32 h ?_
      rw [IntKind.inRange_iff]
      have e1 : IntKind.psInt.minValue = -(2 ^ 31) := by decide
      have e2 : IntKind.psInt.maxValue = 2 ^ 31 - 1 := by decide
      omega
    · refine .number64 h ?_
      rw [IntKind.inRange_iff]
      have e1 : IntKind.psInt64.minValue = -(2 ^ 63) := by decide
      have e2 : IntKind.psInt64.maxValue = 2 ^ 63 - 1 := by decide
      omega

theorem base64_plain (b : Bytes) : Bareword (b64encode b) := by
  intro c hc
  have := b64_text b c hc
  omega

theorem goes_base64 (hn : Bareword n) (b : Bytes) : Goes E objs (n, .prim (.str .string (b64encode b))) (n, .base64 b) :=
  goes_prim hn (base64_plain b).sound fun _ _ _ _ h => by
    obtain ⟨rfl, u, h, rfl⟩ := h
    rw [esc_plain h (base64_plain b), xmlText_bare (base64_encode b).bare]
    exact .base64 (base64_encode b)

theorem goes_text (hn : Bareword n) {t : Option PyStr} {l : List (Option PyStr)} (h : ∀ t, some t ∈ l → Sound t) (ht : t ∈ l) :
    Goes E objs (n, textNote t) (n, .orNull .text t) := by
  cases t with
  | none => exact goes_null hn
  | some s => exact goes_prim hn (h s ht) fun _ _ _ _ h => by obtain ⟨rfl, u, h, rfl⟩ := h; exact .text h

theorem goes_time (hn : Bareword n) {t : Option DateFields} (h : ∀ d, t = some d → (Prim.date d).Formal E) :
    Goes E objs (n, dateNote t) (n, .orNull .time t) := by
  cases t with
  | none => exact goes_null hn
  | some s => exact goes_prim hn (h s rfl) fun _ _ _ _ h => by obtain ⟨rfl, h⟩ := h; exact .time h

theorem goes_guid (hn : Bareword n) {t : Option Nat} (h : ∀ d, t = some d → d < 2 ^ 128) :
    Goes E objs (n, guidNote t) (n, .orNull .guid t) := by
  cases t with
  | none => exact goes_null hn
  | some s => exact goes_prim hn (h s rfl) fun _ _ _ _ h => by obtain ⟨rfl, h⟩ := h; exact .guid h

theorem goes_int32? (hn : Bareword n) {v : Option Int} {p : PVal} (h : intNote? .psInt v = .ok p) :
    Goes E objs (n, p) (n, .orNull .int32 v) := by
  obtain ⟨_, rfl⟩ := intNote?_ok.mp h
  cases v with
  | none => exact goes_null hn
  | some v => exact goes_int32 hn v

theorem goes_uint32? (hn : Bareword n) {v : Option Int} {p : PVal} (h : intNote? .psUInt v = .ok p) :
    Goes E objs (n, p) (n, .orNull .uint32 v) := by
  obtain ⟨_, rfl⟩ := intNote?_ok.mp h
  cases v with
  | none => exact goes_null hn
  | some v => exact goes_uint32 hn v

theorem goes_optional (hn : Bareword n) {v : PVal} (h : v ∈ objs) : All2 (Goes E objs) (givenNote n v) (optional n v) := by
  unfold givenNote optional
  split
  · exact .nil
  · exact .cons (goes_object hn h) .nil

theorem goes_limit (hn : Bareword n) {v : Option Int} (h0 : v ≠ some 0) {ps : List (PyStr × PVal)} (h : limitNote n v = .ok ps) :
    All2 (Goes E objs) ps (v.toList.map fun v => (n, .int32 v)) := by
  cases v with
  | none => cases h; exact .nil
  | some v =>
    unfold limitNote at h
    cases e : intNote .psInt v with
    | error _ => simp only [e] at h; cases h
    | ok p =>
      obtain ⟨_, rfl⟩ := intNote_ok.mp e
      have : v ≠ 0 := fun h => h0 (by rw [h])
      simp only [e, if_neg this, Except.ok.injEq] at h
      subst h
      exact .cons (goes_int32 hn v) .nil

/-- The properties of a message are its fields. -/
theorem notes_fields {l : Letter} {ts : List PyStr} {ps : List (PyStr × PVal)} (h : l.shape = .ok (.notes ts ps))
    (f : l.FieldsFormal E) : ps ≠ [] ∧ ∃ fs, l.body = .fields fs ∧ All2 (Goes E l.objects) ps fs := by
  have pool : ∀ s : PoolState, s.number = s.code := fun s => by cases s <;> rfl
  have pipe : ∀ s : PipeState, s.number = s.code := fun s => by cases s <;> rfl
  cases l <;> simp only [Letter.shape, bind_ok, intNote_ok, Except.ok.injEq, Shape.notes.injEq, reduceCtorEq] at h
  case sessionCapability a b c t =>
    obtain ⟨rfl, rfl⟩ := h
    refine ⟨by simp, _, rfl, ?_⟩
    refine .cons (goes_version (by decide) (f a (by simp))) (.cons (goes_version (by decide) (f b (by simp)))
      (.cons (goes_version (by decide) (f c (by simp))) ?_))
    rcases t with _ | _ | ⟨t, ts⟩
    · exact .nil
    · exact .nil
    · exact .cons (goes_bytes (by decide) _) .nil
  case initRunspacePool =>
    obtain ⟨_, ⟨_, rfl⟩, _, ⟨_, rfl⟩, rfl, rfl⟩ := h
    exact ⟨by simp, _, rfl, .cons (goes_int32 (by decide) _) (.cons (goes_int32 (by decide) _)
      (.cons (goes_object (by decide) (by simp [Letter.objects])) (.cons (goes_object (by decide) (by simp [Letter.objects]))
      (.cons (goes_object (by decide) (by simp [Letter.objects])) (.cons (goes_object (by decide) (by simp [Letter.objects])) .nil)))))⟩
  case publicKey => obtain ⟨rfl, rfl⟩ := h; exact ⟨by simp, _, rfl, .cons (goes_base64 (by decide) _) .nil⟩
  case encryptedSessionKey => obtain ⟨rfl, rfl⟩ := h; exact ⟨by simp, _, rfl, .cons (goes_base64 (by decide) _) .nil⟩
  case setMaxRunspaces =>
    obtain ⟨_, ⟨_, rfl⟩, _, ⟨_, rfl⟩, rfl, rfl⟩ := h
    exact ⟨by simp, _, rfl, .cons (goes_int32 (by decide) _) (.cons (goes_int64 (by decide) _) .nil)⟩
  case setMinRunspaces =>
    obtain ⟨_, ⟨_, rfl⟩, _, ⟨_, rfl⟩, rfl, rfl⟩ := h
    exact ⟨by simp, _, rfl, .cons (goes_int32 (by decide) _) (.cons (goes_int64 (by decide) _) .nil)⟩
  case runspaceAvailability r _ =>
    obtain ⟨_, ⟨_, rfl⟩, rfl, rfl⟩ := h
    cases r with
    | bool b => exact ⟨by simp, _, rfl, .cons (goes_flag (by decide) _) (.cons (goes_int64 (by decide) _) .nil)⟩
    | int n => exact ⟨by simp, _, rfl, .cons (goes_number (by decide) f.1 f.2) (.cons (goes_int64 (by decide) _) .nil)⟩
  case runspacePoolState s _ =>
    obtain ⟨_, ⟨_, rfl⟩, rfl, rfl⟩ := h
    refine ⟨by simp, _, rfl, ?_⟩
    rw [pool]
    exact .cons (goes_int32 (by decide) _) (goes_optional (by decide) (by simp [Letter.objects]))
  case createPipeline =>
    obtain ⟨rfl, rfl⟩ := h
    exact ⟨by simp, _, rfl, .cons (goes_flag (by decide) _) (.cons (goes_object (by decide) (by simp [Letter.objects]))
      (.cons (goes_object (by decide) (by simp [Letter.objects])) (.cons (goes_flag (by decide) _)
      (.cons (goes_object (by decide) (by simp [Letter.objects])) (.cons (goes_object (by decide) (by simp [Letter.objects]))
      (.cons (goes_flag (by decide) _) .nil))))))⟩
  case getAvailableRunspaces =>
    obtain ⟨_, ⟨_, rfl⟩, rfl, rfl⟩ := h
    exact ⟨by simp, _, rfl, .cons (goes_int64 (by decide) _) .nil⟩
  case userEvent =>
    obtain ⟨_, hi, rfl, rfl⟩ := h
    exact ⟨by simp, _, rfl, .cons (goes_int32? (by decide) hi) (.cons (goes_text (by decide) f.1 (by simp))
      (.cons (goes_time (by decide) f.2.1) (.cons (goes_object (by decide) (by simp [Letter.objects]))
      (.cons (goes_object (by decide) (by simp [Letter.objects])) (.cons (goes_object (by decide) (by simp [Letter.objects]))
      (.cons (goes_text (by decide) f.1 (by simp)) (.cons (goes_guid (by decide) f.2.2) .nil)))))))⟩
  case applicationPrivateData =>
    obtain ⟨rfl, rfl⟩ := h
    exact ⟨by simp, _, rfl, .cons (goes_object (by decide) (by simp [Letter.objects])) .nil⟩
  case getCommandMetadata =>
    obtain ⟨rfl, rfl⟩ := h
    exact ⟨by simp, _, rfl, .cons (goes_object (by decide) (by simp [Letter.objects]))
      (.cons (goes_object (by decide) (by simp [Letter.objects])) (.cons (goes_object (by decide) (by simp [Letter.objects]))
      (.cons (goes_object (by decide) (by simp [Letter.objects])) .nil)))⟩
  case runspacePoolHostCall =>
    obtain ⟨_, ⟨_, rfl⟩, rfl, rfl⟩ := h
    exact ⟨by simp, _, rfl, .cons (goes_int64 (by decide) _) (.cons (goes_object (by decide) (by simp [Letter.objects]))
      (.cons (goes_object (by decide) (by simp [Letter.objects])) .nil))⟩
  case runspacePoolHostResponse =>
    obtain ⟨_, ⟨_, rfl⟩, rfl, rfl⟩ := h
    exact ⟨by simp, _, rfl, .append (.append (.cons (goes_int64 (by decide) _)
      (.cons (goes_object (by decide) (by simp [Letter.objects])) .nil)) (goes_optional (by decide) (by simp [Letter.objects])))
      (goes_optional (by decide) (by simp [Letter.objects]))⟩
  case pipelineState s _ =>
    obtain ⟨_, ⟨_, rfl⟩, rfl, rfl⟩ := h
    refine ⟨by simp, _, rfl, ?_⟩
    rw [pipe]
    exact .cons (goes_int32 (by decide) _) (goes_optional (by decide) (by simp [Letter.objects]))
  case progressRecord =>
    obtain ⟨_, h1, _, h2, _, h3, _, h4, rfl, rfl⟩ := h
    exact ⟨by simp, _, rfl, .cons (goes_text (by decide) f (by simp)) (.cons (goes_int32? (by decide) h1)
      (.cons (goes_text (by decide) f (by simp)) (.cons (goes_text (by decide) f (by simp)) (.cons (goes_int32? (by decide) h2)
      (.cons (goes_int32? (by decide) h3) (.cons (goes_object (by decide) (by simp [Letter.objects]))
      (.cons (goes_int32? (by decide) h4) .nil)))))))⟩
  case informationRecord =>
    obtain ⟨_, h1, _, h2, _, h3, rfl, rfl⟩ := h
    exact ⟨by simp, _, rfl, .cons (goes_object (by decide) (by simp [Letter.objects])) (.cons (goes_text (by decide) f.1 (by simp))
      (.cons (goes_time (by decide) f.2) (.cons (goes_object (by decide) (by simp [Letter.objects]))
      (.cons (goes_text (by decide) f.1 (by simp)) (.cons (goes_text (by decide) f.1 (by simp)) (.cons (goes_uint32? (by decide) h1)
      (.cons (goes_uint32? (by decide) h2) (.cons (goes_uint32? (by decide) h3) .nil))))))))⟩
  case pipelineHostCall =>
    obtain ⟨_, ⟨_, rfl⟩, rfl, rfl⟩ := h
    exact ⟨by simp, _, rfl, .cons (goes_int64 (by decide) _) (.cons (goes_object (by decide) (by simp [Letter.objects]))
      (.cons (goes_object (by decide) (by simp [Letter.objects])) .nil))⟩
  case pipelineHostResponse =>
    obtain ⟨_, ⟨_, rfl⟩, rfl, rfl⟩ := h
    exact ⟨by simp, _, rfl, .append (.append (.cons (goes_int64 (by decide) _)
      (.cons (goes_object (by decide) (by simp [Letter.objects])) .nil)) (goes_optional (by decide) (by simp [Letter.objects])))
      (goes_optional (by decide) (by simp [Letter.objects]))⟩
  case connectRunspacePool min max =>
    obtain ⟨p1, h1, p2, h2, h⟩ := h
    split at h
    · cases h
    next hp =>
      cases h
      have g := (goes_limit (E := E) (objs := (Letter.connectRunspacePool min max).objects) (by decide) f.1 h1).append
        (goes_limit (by decide) f.2 h2)
      refine ⟨hp, _, ?_, g⟩
      cases min with
      | some v => rfl
      | none =>
        cases max with
        | some v => rfl
        | none => cases h1; cases h2; exact absurd rfl hp
  case runspacePoolInitData =>
    obtain ⟨_, ⟨_, rfl⟩, _, ⟨_, rfl⟩, rfl, rfl⟩ := h
    exact ⟨by simp, _, rfl, .cons (goes_int32 (by decide) _) (.cons (goes_int32 (by decide) _) .nil)⟩
  case resetRunspaceState =>
    obtain ⟨_, ⟨_, rfl⟩, rfl, rfl⟩ := h
    exact ⟨by simp, _, rfl, .cons (goes_int64 (by decide) _) .nil⟩

/-- A message that is a value. -/
theorem value_body {l : Letter} {v : PVal} (h : l.shape = .ok (.value v)) (f : l.FieldsFormal E) :
    (l = .pipelineOutput .nil ∧ v = .nil) ∨ (v ≠ .nil ∧ l.body = .value v ∧ (v ∈ l.objects ∨ v = .prim (.str .string []))) := by
  cases l <;> simp only [Letter.shape, bind_ok, intNote_ok, Except.ok.injEq, Shape.value.injEq, reduceCtorEq, and_false, exists_false] at h
  case publicKeyRequest => subst h; exact .inr ⟨by simp, rfl, .inr rfl⟩
  case pipelineInput => subst h; exact .inr ⟨f, rfl, .inl (by simp [Letter.objects])⟩
  case pipelineOutput w =>
    subst h
    cases w with
    | nil => exact .inl ⟨rfl, rfl⟩
    | bool b => exact .inr ⟨by simp, rfl, .inl (by simp [Letter.objects])⟩
    | prim p => exact .inr ⟨by simp, rfl, .inl (by simp [Letter.objects])⟩
    | ref a => exact .inr ⟨by simp, rfl, .inl (by simp [Letter.objects])⟩
  case connectRunspacePool min max =>
    obtain ⟨p1, h1, p2, h2, h⟩ := h
    split at h
    next hp =>
      cases h
      have g := (goes_limit (E := E) (objs := []) (by decide) f.1 h1).append
        (goes_limit (by decide) f.2 h2)
      rw [hp] at g
      cases min with
      | some v => cases g
      | none =>
        cases max with
        | some v => cases g
        | none => exact .inr ⟨by simp, rfl, .inr rfl⟩
    · cases h
  case record => subst h; exact .inr ⟨f, rfl, .inl (by simp [Letter.objects])⟩

theorem end_body {l : Letter} (h : l.shape = .ok .endOfInput) : l = .endOfPipelineInput := by
  cases l <;> simp only [Letter.shape, bind_ok, intNote_ok, Except.ok.injEq, reduceCtorEq, and_false, exists_false] at h
  · rfl
  · obtain ⟨_, _, _, _, h⟩ := h
    split at h <;> cases h

theorem props_fields {H : Heap} {f : PVal → SState → Except Err (Xml × SState)} {ps : List (PyStr × PVal)}
    {fs : List (PyStr × Field)} (h : All2 (Goes E objs) ps fs) (hf : ∀ v ∈ ps.map Prod.snd, Shapes H f v) :
    ∀ s xs s', serProps f ps s = .ok (xs, s') → FieldTexts H fs (writeAll xs) := by
  induction h with
  | nil => intro s xs s' h; cases h; exact .nil
  | @cons q r ps fs hq _ ih =>
    obtain ⟨n, v⟩ := q
    obtain ⟨m, w⟩ := r
    obtain ⟨rfl, hn, _, ht⟩ := hq
    intro s xs s' h
    unfold serProps at h
    split at h
    · cases h
    · rename_i x s1 h1
      split at h
      · cases h
      · rename_i ys s2 h2
        cases h
        have hx := hf v (by simp) _ _ _ h1
        rw [writeAll_cons, setName_with hx.1]
        have := hx.2 (some (serializeString n)) none
        rw [more_name hn.sound] at this
        rw [show serializeString n = n from hn.serialize] at this ⊢
        exact .cons (ht _ _ _ this) (ih (fun v hv => hf v (by simp only [List.map_cons, List.mem_cons]; exact .inr hv)) _ _ _ h2)

theorem reach_put_roots {H : Heap} {a : Nat} {o : PObj} {roots : List PVal} (fresh : ∀ b, Reach H roots b → b ≠ a) {b : Nat}
    (h : Reach (H.put a o) roots b) : Reach H roots b := by
  induction h with
  | root h => exact .root h
  | step _ hb ih => rw [put_other (fresh _ ih)] at hb; exact .step ih hb

/-- The data of a message. -/
theorem body_written {H : Heap} {a k n : Nat} {l : Letter} {sh : Shape} {t : MsgType} {d : Bytes} (hs : l.shape = .ok sh)
    (f : l.FieldsFormal E) (g : GraphFormal E H l.objects) (fresh : ∀ b, Reach H l.objects b → b ≠ a)
    (h : messageData E n l.type (sh.outgoing H a k) = .ok (t, d)) :
    t = l.type ∧ ∃ text, MessageBodyText H l.body text ∧ d = text.flatMap utf8Char := by
  cases sh with
  | endOfInput =>
    obtain rfl := end_body hs
    cases h
    exact ⟨rfl, [], .empty, rfl⟩
  | value v =>
    rcases value_body hs f with ⟨rfl, rfl⟩ | ⟨hv, hb, hm⟩
    · cases h
      exact ⟨rfl, [], .empty, rfl⟩
    · have e : messageData E n l.type (.object H v) = match ser E H n v {} with
          | .error e => .error e
          | .ok (x, _) => .ok (l.type, xmlBytes x) := by cases v <;> first | rfl | exact absurd rfl hv
      unfold Shape.outgoing at h
      rw [e] at h
      split at h
      · cases h
      · rename_i x s hx
        cases h
        refine ⟨rfl, _, ?_, rfl⟩
        rw [hb]
        have hx := ser_shapes E H l.objects g.objs n v (by
          rcases hm with hm | rfl
          · exact g.vals v hm
          · exact Bareword.sound (fun _ h => by cases h)) (fun b e => by
          rcases hm with hm | rfl
          · exact .root (e ▸ hm)
          · cases e) _ _ _ hx
        have := hx.2 none none
        rw [hx.1] at this
        exact .value this
  | notes ts ps =>
    obtain ⟨hp, fs, hb, hg⟩ := notes_fields hs f
    have ht := (shape_names hs).2
    unfold Shape.outgoing messageData at h
    dsimp only at h
    split at h
    · cases h
    · rename_i x s hx
      cases h
      refine ⟨rfl, _, ?_, rfl⟩
      rw [hb]
      cases n with
      | zero => cases hx
      | succ n =>
        have hf : ∀ v ∈ ps.map Prod.snd, Shapes H
            (ser E (H.put a { key := some k, types := ts, extended := ps }) n) v := by
          have hv : ∀ v ∈ ps.map Prod.snd, v ∈ l.objects ∨ v.IsPlain ∧ v.Formal E := by
            intro v hv
            clear hx hb hp hs ht
            induction hg with
            | nil => cases hv
            | cons hq _ ih =>
              rcases List.mem_cons.mp hv with rfl | hv
              · exact hq.2.2.1
              · exact ih hv
          intro v hm
          refine ser_shapes_in E _ H l.objects ?_ ?_ n v ?_ ?_
          · intro b hr
            have hr := reach_put_roots fresh hr
            rw [put_other (fresh b hr)]
            exact g.objs b hr
          · intro b hr
            rw [put_other (fresh b (reach_put_roots fresh hr))]
          · exact (hv v hm).elim (g.vals v) (·.2)
          · intro b e
            subst e
            exact (hv _ hm).elim .root fun o => o.1.elim
        change serObj E (ser E _ n) a (H.put a _ a) {} = .ok (x, s) at hx
        rw [put_self] at hx
        generalize ser E (H.put a { key := some k, types := ts, extended := ps }) n = w at hx hf
        change serBody E w a 0 { key := some k, types := ts, extended := ps } { objRef := [(k, 0)], nextId := 1 } = .ok (x, s) at hx
        unfold serBody serGroup serContent writtenTypes serSub at hx
        dsimp only at hx
        rw [if_pos rfl] at hx
        dsimp only at hx
        rw [if_neg hp] at hx
        split at hx
        · cases hx
        · rename_i ms s2 h2
          cases hx
          split at h2
          · cases h2
          · rename_i xs s3 h3
            cases h2
            have key := props_fields hg hf _ _ _ h3
            have hz : natStr 0 = txt! "0" := rfl
            rw [writeXml_element, attrs_ref, show xmlText [] = [] from rfl, List.nil_append, hz]
            simp only [List.nil_append, List.append_nil, writeAll_append]
            have := writeAll_one .MS xs
            rw [this, show moreAttrs none none = [] from rfl, show writeAll (serString none) = [] from rfl, List.append_nil, List.append_nil]
            refine .fields ?_ key
            rcases ht with rfl | rfl
            · exact .inl rfl
            · rw [show serTypes objectTypes { objRef := [(k, 0)], nextId := 1 } =
                ((serTypes objectTypes {}).1, { (serTypes objectTypes {}).2 with objRef := [(k, 0)], nextId := 1 }) from rfl]
              dsimp only
              exact .inr (by decide)

theorem bigEndian_append (xs : Bytes) (b : UInt8) : bigEndian (xs ++ [b]) = 256 * bigEndian xs + b.toNat := by
  unfold bigEndian
  rw [List.foldl_append]
  rfl

theorem bigEndian_reverse (bs : Bytes) : bigEndian bs.reverse = leDec bs := by
  induction bs with
  | nil => rfl
  | cons b bs ih =>
    rw [List.reverse_cons, bigEndian_append, ih, leDec]
    omega

theorem bigEndian_eq (bs : Bytes) : bigEndian bs = beDec bs := by
  have := bigEndian_reverse bs.reverse
  rwa [List.reverse_reverse] at this

theorem little_iff {k n : Nat} {bs : Bytes} : Little k n bs ↔ packLE k n = .ok bs := by
  unfold Little packLE
  rw [bigEndian_reverse]
  constructor
  · rintro ⟨rfl, rfl⟩
    rw [if_pos (leDec_lt bs), leEnc_leDec]
  · intro h
    split at h
    · cases h
      exact ⟨leEnc_length _ _, leDec_leEnc _ _ ‹_›⟩
    · cases h

theorem big_iff {k n : Nat} {bs : Bytes} : Big k n bs ↔ packBE k n = .ok bs := by
  have := little_iff (k := k) (n := n) (bs := bs.reverse)
  unfold Little at this
  rw [List.reverse_reverse, List.length_reverse] at this
  unfold Big
  rw [this]
  unfold packLE packBE beEnc
  split
  · simp only [Except.ok.injEq]
    exact ⟨fun h => by rw [h, List.reverse_reverse], fun h => by rw [← h, List.reverse_reverse]⟩
  · simp

theorem fragment_layout {oid fid : Nat} {data wire : Bytes} {last : Bool} :
    createFragment oid fid data last = .ok wire ↔ FragmentLayout oid fid data last wire := by
  have flags : (startEndByte fid last).toNat = (if fid = 0 then 1 else 0) + if last then 2 else 0 := by
    unfold startEndByte
    by_cases h : fid = 0 <;> cases last <;> simp [h] <;> rfl
  unfold createFragment FragmentLayout
  simp only [bind_ok, big_iff]
  constructor
  · rintro ⟨o, ho, f, hf, l, hl, h⟩
    cases h
    exact ⟨o, f, l, _, ho, hf, hl, flags, rfl⟩
  · rintro ⟨o, f, l, fl, ho, hf, hl, h, rfl⟩
    rw [← flags] at h
    rw [UInt8.toNat_inj.mp h]
    exact ⟨o, ho, f, hf, l, hl, rfl⟩

theorem guid_bytes {u : UUID} {bs : Bytes} : GuidBytes u bs ↔ bs = u.bytesLE := by
  unfold GuidBytes UUID.bytesLE uuidSwap
  constructor
  · rintro ⟨a, b, c, d, h, ha, hb, hc, hd, rfl⟩
    rw [h]
    have e1 : List.take 4 (a ++ b ++ c ++ d) = a := by rw [List.append_assoc, List.append_assoc, ← ha, List.take_left]
    have e2 : List.drop 4 (a ++ b ++ c ++ d) = b ++ (c ++ d) := by rw [List.append_assoc, List.append_assoc, ← ha, List.drop_left]
    have e3 : List.drop 6 (a ++ b ++ c ++ d) = c ++ d := by
      rw [show (6 : Nat) = 4 + 2 from rfl, ← List.drop_drop, e2, ← hb, List.drop_left]
    have e4 : List.drop 8 (a ++ b ++ c ++ d) = d := by
      rw [show (8 : Nat) = 6 + 2 from rfl, ← List.drop_drop, e3, ← hc, List.drop_left]
    rw [e1, e2, e3, e4, ← hb, List.take_left, hb, ← hc, List.take_left]
  · rintro rfl
    have hl := u.len
    refine ⟨u.bytes.take 4, (u.bytes.drop 4).take 2, (u.bytes.drop 6).take 2, u.bytes.drop 8, ?_, ?_, ?_, ?_, ?_, rfl⟩
    · rw [show u.bytes.drop 8 = (u.bytes.drop 6).drop 2 by rw [List.drop_drop], List.append_assoc, List.take_append_drop,
        show u.bytes.drop 6 = (u.bytes.drop 4).drop 2 by rw [List.drop_drop], List.append_assoc, List.take_append_drop,
        List.take_append_drop]
    all_goals simp [hl]

theorem message_number (t : MsgType) {n : Nat} : (t, n) ∈ messageNumbers ↔ n = t.value := by
  constructor
  · intro h
    cases t <;> simpa [messageNumbers, MsgType.value] using h
  · rintro rfl
    cases t <;> decide

theorem message_layout {client : Bool} {t : MsgType} {data wire : Bytes} {rpid : UUID} {pid : Option UUID} :
    createMessage client t data rpid pid = .ok wire ↔ MessageLayout client t data rpid pid wire := by
  have zero : EMPTY_UUID.bytesLE = List.replicate 16 0 := by decide
  have hp : ∀ p, ((∃ q, pid = some q ∧ GuidBytes q p) ∨ (pid = none ∧ p = List.replicate 16 0)) ↔
      p = (pid.getD EMPTY_UUID).bytesLE := by
    intro p
    cases pid with
    | none => simp [zero]
    | some q => simp [guid_bytes]
  unfold createMessage MessageLayout
  simp only [bind_ok, little_iff, message_number, hp]
  simp only [guid_bytes]
  constructor
  · rintro ⟨d, hd, ty, ht, h⟩
    cases h
    exact ⟨d, _, ty, _, _, hd, rfl, ht, rfl, rfl, rfl⟩
  · rintro ⟨d, _, ty, _, _, hd, rfl, ht, rfl, rfl, rfl⟩
    exact ⟨d, hd, ty, ht, rfl⟩

end Verif
