import Verif.Spec.Contents
import Verif.Props.Host
import Verif.Props.Command
import Verif.Props.Events

/-! # Lemmas on trees in messages (C75, C76) -/

namespace Verif

/-! ## Trees that arrive -/

/-- The tops match. -/
def NodeMatch (φ : Nat → Option Nat) : Node PVal → Node DVal → Prop
  | .nil, n => n = .nil
  | .bool b, n => n = .bool b
  | .int k, n => n = .int k
  | .char c, n => n = .char c
  | .str s, n => n = .str s
  | .enum k, n => n = .enum k
  | .list l, n => ∃ l', n = .list l' ∧ All2 (VMatch φ) l l'
  | .dict l, n => ∃ l', n = .dict l' ∧ All2 (EMatch φ) l l'
  | .obj l, n => ∃ l', n = .obj l' ∧ All2 (PMatch φ) l l'
  | .other, _ => True

theorem norm_norm (p : Prim) : p.norm.norm = p.norm := by
  cases p with
  | plainInt v =>
    by_cases h : v < 2 ^ 31
    · have : (Prim.plainInt v).norm = .int .psInt v := if_pos h
      rw [this]; rfl
    · have : (Prim.plainInt v).norm = .int .psInt64 v := if_neg h
      rw [this]; rfl
  | _ => rfl

theorem prim_nodeMatch (φ : Nat → Option Nat) (p : Prim) : NodeMatch φ p.node p.norm.node := by
  unfold Prim.node
  rw [norm_norm]
  cases h : p.norm with
  | str k s => cases k <;> simp [NodeMatch]
  | _ => simp [NodeMatch]

theorem member_nodeMatch (φ : Nat → Option Nat) (p : Prim) : NodeMatch φ p.member p.norm.member := by
  unfold Prim.member
  rw [norm_norm]
  cases h : p.norm <;> simp [NodeMatch]

theorem All2.nil_left {α β : Type} {R : α → β → Prop} {l : List β} (h : All2 R [] l) : l = [] := by cases h; rfl

theorem completed_data (H : Heap) (L : Lib) (a : Nat) : (H.completed L a).data = (H a).data := rfl

theorem mem_of_lookup {α : Type} {n : PyStr} {v : α} : ∀ {ps : List (PyStr × α)}, ps.lookup n = some v → (n, v) ∈ ps
  | [], h => by cases h
  | (m, w) :: ps, h => by
    rw [List.lookup_cons] at h
    by_cases e : n = m
    · subst e
      rw [beq_self_eq_true] at h
      cases h
      exact List.mem_cons_self
    · rw [show (n == m) = false from beq_eq_false_iff_ne.mpr e] at h
      exact List.mem_cons_of_mem _ (mem_of_lookup h)

theorem arranged_ref {declared : List PyStr} {ps : List (PyStr × PVal)} {q : PyStr × PVal} {a : Nat} (h : q ∈ arranged .nil declared ps)
    (e : q.2 = .ref a) : q ∈ ps := by
  unfold arranged at h
  rcases List.mem_append.mp h with h | h
  · obtain ⟨n, _, rfl⟩ := List.mem_map.mp h
    dsimp only at e ⊢
    cases el : ps.lookup n with
    | none => rw [el] at e; cases e
    | some v => exact mem_of_lookup el
  · exact (List.mem_filter.mp h).1

/-- What a received value is at its top is what the value that was sent is. -/
theorem look_match {L : Lib} {φ : Nat → Option Nat} {H : Heap} {s : DState} {v : PVal} {d : DVal} (hv : VMatch φ v d)
    (ho : ∀ a, v = .ref a → ∀ b, φ b = some a → ∃ o, s.heap[b]? = some o ∧ OMatch L φ (H a) (s.shown L o)) :
    NodeMatch φ ((H.completed L).look v) (s.look L d) := by
  cases v with
  | nil => cases hv; rfl
  | bool b => cases hv; rfl
  | prim p => cases hv; exact prim_nodeMatch φ p
  | ref a =>
    obtain ⟨b, rfl, hb⟩ := hv
    obtain ⟨o, h1, m⟩ := ho a rfl b hb
    simp only [Heap.look, DState.look, h1]
    rw [completed_data]
    have hd := m.data
    cases h : (H a).data with
    | none =>
      rw [h] at hd
      simp only [DataMatch] at hd
      rw [hd]
      dsimp only
      by_cases e : (L.completed (H a)).adapted = []
      · have := m.adapted
        rw [e] at this
        rw [show (H.completed L a).adapted = [] from e, if_pos rfl, if_pos this.nil_left]
        exact ⟨_, rfl, m.extended⟩
      · rw [if_neg (show ¬ (H.completed L a).adapted = [] from e)]; trivial
    | ext p =>
      rw [h] at hd
      simp only [DataMatch] at hd
      rw [hd]
      exact member_nodeMatch φ p
    | enum p =>
      rw [h] at hd
      simp only [DataMatch] at hd
      rw [hd]
      exact member_nodeMatch φ p
    | list k l =>
      rw [h] at hd
      obtain ⟨l', e, hl⟩ := hd
      rw [e]
      exact ⟨l', rfl, hl⟩
    | queue l => trivial
    | dict l =>
      rw [h] at hd
      obtain ⟨l', e, hl⟩ := hd
      rw [e]
      exact ⟨l', rfl, hl⟩

theorem look_list {L : Lib} {H : Heap} {roots : List PVal} {v : PVal} {l : List PVal} (h : (H.completed L).look v = .list l)
    (hr : ∀ a, v = .ref a → Reach H roots a) : ∀ a, .ref a ∈ l → Reach H roots a := by
  intro a ha
  cases v with
  | nil => cases h
  | bool b => cases h
  | prim p =>
    simp only [Heap.look, Prim.node] at h
    split at h <;> cases h
  | ref c =>
    refine .step (hr c rfl) ?_
    simp only [Heap.look] at h
    rw [completed_data] at h
    unfold PObj.values
    cases e : (H c).data with
    | list k l' => rw [e] at h; cases h; simp [ha]
    | none => rw [e] at h; dsimp only at h; split at h <;> cases h
    | ext p => rw [e] at h; simp only [Prim.member] at h; split at h <;> cases h
    | enum p => rw [e] at h; simp only [Prim.member] at h; split at h <;> cases h
    | queue l' => rw [e] at h; cases h
    | dict l' => rw [e] at h; cases h

theorem look_dict {L : Lib} {H : Heap} {roots : List PVal} {v : PVal} {l : List (PVal × PVal)} (h : (H.completed L).look v = .dict l)
    (hr : ∀ a, v = .ref a → Reach H roots a) :
    (∀ a, .ref a ∈ l.map Prod.fst → Reach H roots a) ∧ ∀ a, .ref a ∈ l.map Prod.snd → Reach H roots a := by
  cases v with
  | nil => cases h
  | bool b => cases h
  | prim p =>
    simp only [Heap.look, Prim.node] at h
    split at h <;> cases h
  | ref c =>
    have key : ∀ a, .ref a ∈ l.map Prod.fst ++ l.map Prod.snd → Reach H roots a := by
      intro a ha
      refine .step (hr c rfl) ?_
      simp only [Heap.look] at h
      rw [completed_data] at h
      unfold PObj.values
      cases e : (H c).data with
      | dict l' =>
        rw [e] at h
        cases h
        exact List.mem_append_right _ ha
      | none => rw [e] at h; dsimp only at h; split at h <;> cases h
      | ext p => rw [e] at h; simp only [Prim.member] at h; split at h <;> cases h
      | enum p => rw [e] at h; simp only [Prim.member] at h; split at h <;> cases h
      | queue l' => rw [e] at h; cases h
      | list k l' => rw [e] at h; cases h
    exact ⟨fun a ha => key a (List.mem_append_left _ ha), fun a ha => key a (List.mem_append_right _ ha)⟩

theorem look_obj {L : Lib} {H : Heap} {roots : List PVal} {v : PVal} {l : List (PyStr × PVal)} (h : (H.completed L).look v = .obj l)
    (hr : ∀ a, v = .ref a → Reach H roots a) : ∀ a, .ref a ∈ l.map Prod.snd → Reach H roots a := by
  intro a ha
  cases v with
  | nil => cases h
  | bool b => cases h
  | prim p =>
    simp only [Heap.look, Prim.node] at h
    split at h <;> cases h
  | ref c =>
    refine .step (hr c rfl) ?_
    simp only [Heap.look] at h
    rw [completed_data] at h
    unfold PObj.values
    cases e : (H c).data with
    | none =>
      rw [e] at h
      dsimp only at h
      split at h
      · cases h
        obtain ⟨q, hq, e⟩ := List.mem_map.mp ha
        exact List.mem_append_left _ (List.mem_append_right _ (List.mem_map.mpr ⟨q, arranged_ref hq e, e⟩))
      · cases h
    | ext p => rw [e] at h; simp only [Prim.member] at h; split at h <;> cases h
    | enum p => rw [e] at h; simp only [Prim.member] at h; split at h <;> cases h
    | queue l' => rw [e] at h; cases h
    | list k l' => rw [e] at h; cases h
    | dict l' => rw [e] at h; cases h

theorem All2.map_both {α β γ δ : Type} {R : α → β → Prop} {S : γ → δ → Prop} {f : α → γ} {g : β → δ}
    (hf : ∀ a b, R a b → S (f a) (g b)) : ∀ {as : List α} {bs : List β}, All2 R as bs → All2 S (as.map f) (bs.map g)
  | _, _, .nil => .nil
  | _, _, .cons h t => .cons (hf _ _ h) (t.map_both hf)

theorem pmatch_names {φ : Nat → Option Nat} : ∀ {l : List (PyStr × PVal)} {l' : List (PyStr × DVal)}, All2 (PMatch φ) l l' →
    l.map Prod.fst = l'.map Prod.fst
  | _, _, .nil => rfl
  | _, _, .cons h t => by
    simp only [List.map_cons]
    rw [h.1, pmatch_names t]

/-- A value that arrives is the tree that the value that was sent is. -/
theorem tree_arrives {L : Lib} {φ : Nat → Option Nat} {H : Heap} {s : DState} {roots : List PVal} {val : Nat → PVal}
    (ho : ∀ a, Reach H roots a → ∀ b, φ b = some a → ∃ o, s.heap[b]? = some o ∧ OMatch L φ (H a) (s.shown L o))
    {t : HVal} {v : PVal} (ht : IsTree (H.completed L).look (fun i v => v = val i) t v) :
    ∀ (d : DVal), VMatch φ v d → (∀ a, v = .ref a → Reach H roots a) →
      IsTree (s.look L) (fun i d => VMatch φ (val i) d) t d := by
  have lm : ∀ {v : PVal} {d : DVal}, VMatch φ v d → (∀ a, v = .ref a → Reach H roots a) → NodeMatch φ ((H.completed L).look v) (s.look L d) :=
    fun hv hr => look_match hv fun a e b hb => ho a (hr a e) b hb
  refine IsTree.rec
    (motive_1 := fun t v _ => ∀ (d : DVal), VMatch φ v d → (∀ a, v = .ref a → Reach H roots a) →
      IsTree (s.look L) (fun i d => VMatch φ (val i) d) t d)
    (motive_2 := fun ts vs _ => ∀ (ds : List DVal), All2 (VMatch φ) vs ds → (∀ a, .ref a ∈ vs → Reach H roots a) →
      All2 (IsTree (s.look L) (fun i d => VMatch φ (val i) d)) ts ds)
    ?_ ?_ ?_ ?_ ?_ ?_ ?_ ?_ ?_ ?_ ?_ ?_ ht
  · intro v h d hv hr
    have := lm hv hr
    rw [h] at this
    exact .nil this
  · intro v b h d hv hr
    have := lm hv hr
    rw [h] at this
    exact .bool this
  · intro v b h d hv hr
    have := lm hv hr
    rw [h] at this
    exact .int this
  · intro v b h d hv hr
    have := lm hv hr
    rw [h] at this
    exact .char this
  · intro v b h d hv hr
    have := lm hv hr
    rw [h] at this
    exact .str this
  · intro v b h d hv hr
    have := lm hv hr
    rw [h] at this
    exact .enum this
  · intro v ts vs h hs ih d hv hr
    have := lm hv hr
    rw [h] at this
    obtain ⟨l', e, hl⟩ := this
    exact .list e (ih _ hl (look_list h hr))
  · intro v ts vs h hk hs ih d hv hr
    have := lm hv hr
    rw [h] at this
    obtain ⟨l', e, hl⟩ := this
    obtain ⟨r1, r2⟩ := look_dict h hr
    refine .dict e ?_ (ih _ (hl.map_both fun _ _ q => q.2) r2)
    have hkeys : All2 (VMatch φ) (vs.map Prod.fst) (l'.map Prod.fst) := hl.map_both fun _ _ q => q.1
    generalize ts.map Prod.fst = ns at hk
    generalize vs.map Prod.fst = ks at hk hkeys r1
    generalize l'.map Prod.fst = ds at hkeys
    clear ih hs hl e h
    induction hk generalizing ds with
    | nil => cases hkeys; exact .nil
    | cons hn _ ih =>
      cases hkeys with
      | cons hq hqs =>
        refine .cons ?_ (ih (fun a ha => r1 a (List.mem_cons_of_mem _ ha)) _ hqs)
        have := lm hq fun a e => r1 a (by rw [e]; exact List.mem_cons_self)
        rw [hn] at this
        exact this
  · intro v ts vs h hn hs ih d hv hr
    have := lm hv hr
    rw [h] at this
    obtain ⟨l', e, hl⟩ := this
    exact .obj e (hn.trans (pmatch_names hl)) (ih _ (hl.map_both fun _ _ q => q.2) (look_obj h hr))
  · intro v i h d hv hr
    subst h
    exact .other hv
  · intro ds h _
    cases h
    exact .nil
  · intro a b as bs _ _ ih1 ih2 ds h hr
    cases h with
    | cons hq hqs =>
      exact .cons (ih1 _ hq fun a e => hr a (by rw [e]; exact List.mem_cons_self)) (ih2 _ hqs fun a ha => hr a (List.mem_cons_of_mem _ ha))

/-! ## A value is one tree, but for leaves -/

theorem keys_agree {V : Type} {look : V → Node V} {ns ms : List Int} {ks : List V} (h : All2 (fun n k => look k = .int n) ns ks)
    (h' : All2 (fun n k => look k = .int n) ms ks) : ns = ms := by
  induction h generalizing ms with
  | nil => cases h'; rfl
  | cons q _ ih =>
    cases h' with
    | cons q' t' =>
      rw [q] at q'
      cases q'
      rw [ih t']

theorem tree_unique {V : Type} {look : V → Node V} {leaf leaf' : Nat → V → Prop} {t : HVal} {v : V} (h : IsTree look leaf t v) :
    ∀ u, IsTree look leaf' u v → Agree t u := by
  refine IsTree.rec (motive_1 := fun t v _ => ∀ u, IsTree look leaf' u v → Agree t u)
    (motive_2 := fun ts vs _ => ∀ us, All2 (IsTree look leaf') us vs → All2 Agree ts us)
    ?_ ?_ ?_ ?_ ?_ ?_ ?_ ?_ ?_ ?_ ?_ ?_ h
  · intro v h u hu
    cases hu with
    | other _ => exact .right _ _
    | nil h' => rw [h] at h'; cases h'; exact .nil
    | bool h' => rw [h] at h'; cases h'
    | int h' => rw [h] at h'; cases h'
    | char h' => rw [h] at h'; cases h'
    | str h' => rw [h] at h'; cases h'
    | enum h' => rw [h] at h'; cases h'
    | list h' hs' => rw [h] at h'; cases h'
    | dict h' hk' hs' => rw [h] at h'; cases h'
    | obj h' hn' hs' => rw [h] at h'; cases h'
  · intro v b h u hu
    cases hu with
    | other _ => exact .right _ _
    | nil h' => rw [h] at h'; cases h'
    | bool h' => rw [h] at h'; cases h'; exact .bool _
    | int h' => rw [h] at h'; cases h'
    | char h' => rw [h] at h'; cases h'
    | str h' => rw [h] at h'; cases h'
    | enum h' => rw [h] at h'; cases h'
    | list h' hs' => rw [h] at h'; cases h'
    | dict h' hk' hs' => rw [h] at h'; cases h'
    | obj h' hn' hs' => rw [h] at h'; cases h'
  · intro v b h u hu
    cases hu with
    | other _ => exact .right _ _
    | nil h' => rw [h] at h'; cases h'
    | bool h' => rw [h] at h'; cases h'
    | int h' => rw [h] at h'; cases h'; exact .int _
    | char h' => rw [h] at h'; cases h'
    | str h' => rw [h] at h'; cases h'
    | enum h' => rw [h] at h'; cases h'
    | list h' hs' => rw [h] at h'; cases h'
    | dict h' hk' hs' => rw [h] at h'; cases h'
    | obj h' hn' hs' => rw [h] at h'; cases h'
  · intro v b h u hu
    cases hu with
    | other _ => exact .right _ _
    | nil h' => rw [h] at h'; cases h'
    | bool h' => rw [h] at h'; cases h'
    | int h' => rw [h] at h'; cases h'
    | char h' => rw [h] at h'; cases h'; exact .char _
    | str h' => rw [h] at h'; cases h'
    | enum h' => rw [h] at h'; cases h'
    | list h' hs' => rw [h] at h'; cases h'
    | dict h' hk' hs' => rw [h] at h'; cases h'
    | obj h' hn' hs' => rw [h] at h'; cases h'
  · intro v b h u hu
    cases hu with
    | other _ => exact .right _ _
    | nil h' => rw [h] at h'; cases h'
    | bool h' => rw [h] at h'; cases h'
    | int h' => rw [h] at h'; cases h'
    | char h' => rw [h] at h'; cases h'
    | str h' => rw [h] at h'; cases h'; exact .str _
    | enum h' => rw [h] at h'; cases h'
    | list h' hs' => rw [h] at h'; cases h'
    | dict h' hk' hs' => rw [h] at h'; cases h'
    | obj h' hn' hs' => rw [h] at h'; cases h'
  · intro v b h u hu
    cases hu with
    | other _ => exact .right _ _
    | nil h' => rw [h] at h'; cases h'
    | bool h' => rw [h] at h'; cases h'
    | int h' => rw [h] at h'; cases h'
    | char h' => rw [h] at h'; cases h'
    | str h' => rw [h] at h'; cases h'
    | enum h' => rw [h] at h'; cases h'; exact .enum _
    | list h' hs' => rw [h] at h'; cases h'
    | dict h' hk' hs' => rw [h] at h'; cases h'
    | obj h' hn' hs' => rw [h] at h'; cases h'
  · intro v ts vs h hs ih u hu
    cases hu with
    | other _ => exact .right _ _
    | nil h' => rw [h] at h'; cases h'
    | bool h' => rw [h] at h'; cases h'
    | int h' => rw [h] at h'; cases h'
    | char h' => rw [h] at h'; cases h'
    | str h' => rw [h] at h'; cases h'
    | enum h' => rw [h] at h'; cases h'
    | list h' hs' => rw [h] at h'; cases h'; exact .list (ih _ hs')
    | dict h' hk' hs' => rw [h] at h'; cases h'
    | obj h' hn' hs' => rw [h] at h'; cases h'
  · intro v ts vs h hk hs ih u hu
    cases hu with
    | other _ => exact .right _ _
    | nil h' => rw [h] at h'; cases h'
    | bool h' => rw [h] at h'; cases h'
    | int h' => rw [h] at h'; cases h'
    | char h' => rw [h] at h'; cases h'
    | str h' => rw [h] at h'; cases h'
    | enum h' => rw [h] at h'; cases h'
    | list h' hs' => rw [h] at h'; cases h'
    | dict h' hk' hs' => rw [h] at h'; cases h'; exact .dict (keys_agree hk hk') (ih _ hs')
    | obj h' hn' hs' => rw [h] at h'; cases h'
  · intro v ts vs h hn hs ih u hu
    cases hu with
    | other _ => exact .right _ _
    | nil h' => rw [h] at h'; cases h'
    | bool h' => rw [h] at h'; cases h'
    | int h' => rw [h] at h'; cases h'
    | char h' => rw [h] at h'; cases h'
    | str h' => rw [h] at h'; cases h'
    | enum h' => rw [h] at h'; cases h'
    | list h' hs' => rw [h] at h'; cases h'
    | dict h' hk' hs' => rw [h] at h'; cases h'
    | obj h' hn' hs' => rw [h] at h'; cases h'; exact .obj (hn.trans hn'.symm) (ih _ hs')
  · intro v i h u hu
    exact .left _ _
  · intro us h
    cases h
    exact .nil
  · intro a b as bs _ _ ih1 ih2 us h
    cases h with
    | cons q t => exact .cons (ih1 _ q) (ih2 _ t)

/-! ## Reading what was made -/

theorem theFlag_nat (n : Nat) : (HVal.enum (n : Int)).theFlag = .ok n := by
  unfold HVal.theFlag
  simp only [HVal.number]
  rw [if_neg (by omega)]
  simp

theorem theFlag?_nat (n : Option Nat) : (HVal.ofEnum (n.map Int.ofNat)).theFlag? = .ok n := by
  cases n with
  | none => rfl
  | some k =>
    show (HVal.enum (k : Int)).theFlag.map some = _
    rw [theFlag_nat]; rfl

theorem theBool?_ofBool (b : Option Bool) : (HVal.ofBool b).theBool? = .ok b := by cases b <;> rfl

theorem theStr?_ofStr (s : Option PyStr) : (HVal.ofStr s).theStr? = .ok s := by cases s <;> rfl

theorem mapM_read {α β : Type} {f : α → β} {g : β → Except Err α} (h : ∀ a, g (f a) = .ok a) (l : List α) :
    (l.map f).mapM g = .ok l := by
  induction l with
  | nil => rfl
  | cons a l ih =>
    rw [List.map_cons, List.mapM_cons, h a, ih]
    rfl

theorem arg_read (a : Option PyStr × HVal) : RemoteCommand.readArg (RemoteCommand.argTree a) = .ok a := by
  obtain ⟨n, v⟩ := a
  show (do return (← (HVal.ofStr n).theStr?, v) : Except Err (Option PyStr × HVal)) = _
  rw [theStr?_ofStr]; rfl

theorem get?_skip {l l' : List (PyStr × HVal)} {k : PyStr} (h : ∀ p ∈ l, p.1 ≠ k) :
    Dict.get? (l ++ l') k = Dict.get? l' k := by
  induction l with
  | nil => rfl
  | cons p l ih =>
    have h1 := h p List.mem_cons_self
    have h2 := ih fun q hq => h q (List.mem_cons_of_mem _ hq)
    rw [List.cons_append, Dict.get?, if_neg h1]
    exact h2

theorem opt_names {n k : PyStr} {o : Option ResultType} (h : n ≠ k) : ∀ p ∈ RemoteCommand.optTree n o, p.1 ≠ k := by
  intro p hp
  cases o with
  | none => cases hp
  | some r =>
    simp only [RemoteCommand.optTree, List.mem_singleton] at hp
    rw [hp]
    exact h

theorem get?_opt {l l' : List (PyStr × HVal)} {k : PyStr} {o : Option ResultType} (h : ∀ p ∈ l, p.1 ≠ k) (h' : ∀ p ∈ l', p.1 ≠ k) :
    HVal.attrOrNone k (.obj (l ++ RemoteCommand.optTree k o ++ l')) = .ofEnum (o.map Int.ofNat) := by
  unfold HVal.attrOrNone HVal.attr
  dsimp only
  rw [List.append_assoc, get?_skip h]
  cases o with
  | none =>
    have := get?_skip (l' := []) h'
    rw [List.append_nil] at this
    rw [show RemoteCommand.optTree k none ++ l' = l' from rfl, this]
    rfl
  | some r =>
    rw [show RemoteCommand.optTree k (some r) ++ l' = (k, HVal.enum r) :: l' from rfl, Dict.get?, if_pos rfl]
    rfl

theorem command_read (r : RemoteCommand HVal) : RemoteCommand.read r.tree = .ok r := by
  obtain ⟨cmd, args, isScript, scope, my, to, prev, e, w, v, d, i⟩ := r
  generalize ht : RemoteCommand.tree ⟨cmd, args, isScript, scope, my, to, prev, e, w, v, d, i⟩ = t
  have h1 : t.attr (lit "Cmd") = .ok (.str cmd) := by rw [← ht]; rfl
  have h2 : t.attr (lit "Args") = .ok (.list (args.map RemoteCommand.argTree)) := by rw [← ht]; rfl
  have h3 : t.attr (lit "IsScript") = .ok (.bool isScript) := by rw [← ht]; rfl
  have h4 : t.attr (lit "UseLocalScope") = .ok (.ofBool scope) := by rw [← ht]; rfl
  have h5 : t.attr (lit "MergeMyResult") = .ok (.enum my) := by rw [← ht]; rfl
  have h6 : t.attr (lit "MergeToResult") = .ok (.enum to) := by rw [← ht]; rfl
  have h7 : t.attr (lit "MergePreviousResults") = .ok (.enum prev) := by rw [← ht]; rfl
  have base : ∀ n : PyStr, n ∈ [lit "MergeError", lit "MergeWarning", lit "MergeVerbose", lit "MergeDebug", lit "MergeInformation"] →
      ∀ p ∈ [(lit "Cmd", HVal.str cmd), (lit "Args", .list (args.map RemoteCommand.argTree)), (lit "IsScript", .bool isScript),
        (lit "UseLocalScope", .ofBool scope), (lit "MergeMyResult", .enum my), (lit "MergeToResult", .enum to),
        (lit "MergePreviousResults", .enum prev)], p.1 ≠ n := by
    intro n hn p hp
    have : p.1 ∈ [lit "Cmd", lit "Args", lit "IsScript", lit "UseLocalScope", lit "MergeMyResult", lit "MergeToResult",
      lit "MergePreviousResults"] := List.mem_map_of_mem (f := Prod.fst) hp
    intro e
    rw [e] at this
    exact absurd this ((by decide +kernel : ∀ n ∈ [lit "MergeError", lit "MergeWarning", lit "MergeVerbose", lit "MergeDebug", lit "MergeInformation"],
      n ∉ [lit "Cmd", lit "Args", lit "IsScript", lit "UseLocalScope", lit "MergeMyResult", lit "MergeToResult",
        lit "MergePreviousResults"]) n hn)
  have app : ∀ {n : PyStr} {l l' : List (PyStr × HVal)}, (∀ p ∈ l, p.1 ≠ n) → (∀ p ∈ l', p.1 ≠ n) → ∀ p ∈ l ++ l', p.1 ≠ n :=
    fun h h' p hp => (List.mem_append.mp hp).elim (h p) (h' p)
  unfold RemoteCommand.tree at ht
  dsimp only at ht
  have h8 : t.attrOrNone (lit "MergeError") = .ofEnum (e.map Int.ofNat) := by
    rw [← ht]
    have := get?_opt (o := e) (base (lit "MergeError") (by decide +kernel)) 
      (app (app (app (opt_names (n := lit "MergeWarning") (k := lit "MergeError") (o := w) (by decide +kernel))
      (opt_names (n := lit "MergeVerbose") (k := lit "MergeError") (o := v) (by decide +kernel)))
      (opt_names (n := lit "MergeDebug") (k := lit "MergeError") (o := d) (by decide +kernel)))
      (opt_names (n := lit "MergeInformation") (k := lit "MergeError") (o := i) (by decide +kernel)))
    simpa only [List.append_assoc, List.append_nil] using this
  have h9 : t.attrOrNone (lit "MergeWarning") = .ofEnum (w.map Int.ofNat) := by
    rw [← ht]
    have := get?_opt (o := w) (app (base (lit "MergeWarning") (by decide +kernel))
      (opt_names (n := lit "MergeError") (k := lit "MergeWarning") (o := e) (by decide +kernel))) 
      (app (app (opt_names (n := lit "MergeVerbose") (k := lit "MergeWarning") (o := v) (by decide +kernel))
      (opt_names (n := lit "MergeDebug") (k := lit "MergeWarning") (o := d) (by decide +kernel)))
      (opt_names (n := lit "MergeInformation") (k := lit "MergeWarning") (o := i) (by decide +kernel)))
    simpa only [List.append_assoc, List.append_nil] using this
  have h10 : t.attrOrNone (lit "MergeVerbose") = .ofEnum (v.map Int.ofNat) := by
    rw [← ht]
    have := get?_opt (o := v) (app (app (base (lit "MergeVerbose") (by decide +kernel))
      (opt_names (n := lit "MergeError") (k := lit "MergeVerbose") (o := e) (by decide +kernel)))
      (opt_names (n := lit "MergeWarning") (k := lit "MergeVerbose") (o := w) (by decide +kernel))) 
      (app (opt_names (n := lit "MergeDebug") (k := lit "MergeVerbose") (o := d) (by decide +kernel))
      (opt_names (n := lit "MergeInformation") (k := lit "MergeVerbose") (o := i) (by decide +kernel)))
    simpa only [List.append_assoc, List.append_nil] using this
  have h11 : t.attrOrNone (lit "MergeDebug") = .ofEnum (d.map Int.ofNat) := by
    rw [← ht]
    have := get?_opt (o := d) (app (app (app (base (lit "MergeDebug") (by decide +kernel))
      (opt_names (n := lit "MergeError") (k := lit "MergeDebug") (o := e) (by decide +kernel)))
      (opt_names (n := lit "MergeWarning") (k := lit "MergeDebug") (o := w) (by decide +kernel)))
      (opt_names (n := lit "MergeVerbose") (k := lit "MergeDebug") (o := v) (by decide +kernel))) 
      (opt_names (n := lit "MergeInformation") (k := lit "MergeDebug") (o := i) (by decide +kernel))
    simpa only [List.append_assoc, List.append_nil] using this
  have h12 : t.attrOrNone (lit "MergeInformation") = .ofEnum (i.map Int.ofNat) := by
    rw [← ht]
    have := get?_opt (o := i) (app (app (app (app (base (lit "MergeInformation") (by decide +kernel))
      (opt_names (n := lit "MergeError") (k := lit "MergeInformation") (o := e) (by decide +kernel)))
      (opt_names (n := lit "MergeWarning") (k := lit "MergeInformation") (o := w) (by decide +kernel)))
      (opt_names (n := lit "MergeVerbose") (k := lit "MergeInformation") (o := v) (by decide +kernel)))
      (opt_names (n := lit "MergeDebug") (k := lit "MergeInformation") (o := d) (by decide +kernel))) (l' := []) (fun _ h => by cases h)
    simpa only [List.append_assoc, List.append_nil] using this
  have h13 : (args.map RemoteCommand.argTree).mapM RemoteCommand.readArg = .ok args := mapM_read arg_read args
  have h14 : (HVal.list (args.map RemoteCommand.argTree)).elems = .ok (args.map RemoteCommand.argTree) := rfl
  have h15 : (HVal.str cmd).theStr = .ok cmd := rfl
  have h16 : (HVal.bool isScript).theBool = .ok isScript := rfl
  have b : ∀ {α β : Type} (a : α) (f : α → Except Err β), (Except.ok a >>= f) = f a := fun _ _ => rfl
  unfold RemoteCommand.read
  simp only [h1, h2, h3, h4, h5, h6, h7, h8, h9, h10, h11, h12, b, h13, h14, h15, h16, theFlag_nat, theFlag?_nat, theBool?_ofBool]
  rfl

theorem cmds_read (cs : List (RemoteCommand HVal)) : CreatePipeline.readCmds (CreatePipeline.cmdsTree cs) = .ok cs := by
  show (cs.map RemoteCommand.tree).mapM RemoteCommand.read = _
  exact mapM_read command_read cs

theorem extra_read (ss : List (List (RemoteCommand HVal))) :
    CreatePipeline.readExtra (.list (ss.map CreatePipeline.statementTree)) = .ok (some ss) := by
  show (do return some (← (ss.map CreatePipeline.statementTree).mapM fun c => do CreatePipeline.readCmds (← c.attr (lit "Cmds"))) :
    Except Err (Option (List (List (RemoteCommand HVal))))) = _
  rw [mapM_read (f := CreatePipeline.statementTree) (fun s => (show (do CreatePipeline.readCmds (← (CreatePipeline.statementTree s).attr (lit "Cmds")) : Except Err (List (RemoteCommand HVal))) = .ok s from cmds_read s)) ss]
  rfl

/-- `PowerShell.FromPSObjectForRemoting` reads what is in the message. -/
theorem pipeline_read (m : CreatePipeline HVal HostInfo) {t : HVal} (ht : HostInfo.fromHost t = .ok m.hostInfo) :
    PowerShell.read (.bool m.noInput) (.ofEnum (m.apartmentState.map Int.ofNat)) (.enum m.remoteStreamOptions) (.bool m.addToHistory) t
      m.commandTree (.bool m.isNested) = PowerShell.fromRemoting m := by
  obtain ⟨noInput, apartment, options, hist, host, nested, cmds, inner, text, pipe, extra⟩ := m
  generalize hc : CreatePipeline.commandTree ⟨noInput, apartment, options, hist, host, nested, cmds, inner, text, pipe, extra⟩ = c
  have h1 : c.attr (lit "History") = .ok (.ofStr text) := by rw [← hc]; rfl
  have h2 : c.attr (lit "RedirectShellErrorOutputPipe") = .ok (.bool pipe) := by rw [← hc]; rfl
  have h3 : c.attr (lit "Cmds") = .ok (CreatePipeline.cmdsTree cmds) := by rw [← hc]; rfl
  have h4 : CreatePipeline.readExtra (c.attrOrNone (lit "ExtraCmds")) = .ok extra := by
    rw [← hc]
    cases extra with
    | none => rfl
    | some ss => exact extra_read ss
  have h5 : (HVal.bool pipe).theBool = .ok pipe := rfl
  have h6 : (HVal.bool noInput).theBool = .ok noInput := rfl
  have h7 : (HVal.bool hist).theBool = .ok hist := rfl
  have h8 : (HVal.bool nested).theBool = .ok nested := rfl
  have b : ∀ {α β : Type} (a : α) (f : α → Except Err β), (Except.ok a >>= f) = f a := fun _ _ => rfl
  unfold PowerShell.read CreatePipeline.read
  dsimp only at ht ⊢
  simp only [h1, h2, h3, h4, h5, h6, h7, h8, ht, b, theStr?_ofStr, theFlag_nat, theFlag?_nat]
  cases extra with
  | none =>
    simp only [cmds_read, b]
    rfl
  | some ss => rfl

/-! ## Contents that arrive -/

theorem tree_look_enum {V : Type} {look : V → Node V} {leaf : Nat → V → Prop} {n : Int} {v : V} (h : IsTree look leaf (.enum n) v) :
    look v = .enum n := by cases h; assumption

theorem content_arrives {E : TextEnv} {L : Lib} {strict : Bool} {val : Nat → PVal} {c : Content} {p : Post}
    {i : Mail (Except Err Incoming)} (ok : p.Ok E L) (hv : c.Valid strict) (hc : c.Sent strict L p.heap val p.letter)
    (he : EventOf L p i) : ContentArrives strict L val c p i := by
  obtain ⟨h1, h2, x, e, φ, hx, hr, hs, ho⟩ := he
  cases x with
  | endOfInput =>
    have : e = .endOfPipelineInput := by cases hr; rfl
    subst this
    exfalso
    cases c with
    | hostCall ci c =>
      obtain ⟨m, ts, mi, mp, _, hl | hl, _⟩ := hc <;> rw [hl] at hs <;> exact hs
    | hostReply ci r =>
      obtain ⟨t, mi, mr, _, hl | hl, _⟩ := hc <;> rw [hl] at hs <;> exact hs
    | pipeline q peer =>
      obtain ⟨m, t, a, o, h, k, _, _, hl, _⟩ := hc
      rw [hl] at hs; exact hs
    | opening min max h =>
      obtain ⟨t, a, b, k, g, _, hl, _⟩ := hc
      rw [hl] at hs; exact hs
  | object d ds =>
    refine ⟨h1, h2, d, ds, e, φ, hx, hr, ?_, ho d ds rfl⟩
    have hob : ∀ a, Reach p.heap p.letter.objects a → ∀ b, φ b = some a → ∃ o, ds.heap[b]? = some o ∧ OMatch L φ (p.heap a) (ds.shown L o) :=
      fun a ha b hb => ho d ds rfl b a hb (ok.addr a ha)
    have arr : ∀ {t : HVal} {v : PVal} {w : DVal}, IsTree (p.heap.completed L).look (fun i v => v = val i) t v → VMatch φ v w →
        v ∈ p.letter.objects → IsTree (ds.look L) (fun i d => VMatch φ (val i) d) t w :=
      fun ht hw hm => tree_arrives hob ht _ hw fun a e => .root (e ▸ hm)
    cases c with
    | hostCall ci c =>
      obtain ⟨m, ts, mi, mp, hen, hl, hmi, hmp⟩ := hc
      obtain ⟨ps, hps, hdec⟩ := C46_call_partial hv
      rw [hps] at hen
      cases hen
      have params : ∀ {mp' : Option DVal}, mp ∈ p.letter.objects → ShowsParams φ p.heap mp mp' →
          ParamTrees (ds.look L) (fun i d => VMatch φ (val i) d) ts mp' := by
        intro mp' hm hq
        cases mp' with
        | some w => exact arr hmp hq hm
        | none =>
          obtain ⟨a, k, rfl, hk⟩ := hq
          cases hmp with
          | list h hs' =>
            simp only [Heap.look, completed_data, hk] at h
            cases h
            cases hs'
            rfl
      have obj : p.letter.objects = [mi, mp] := by rcases hl with hl | hl <;> rw [hl] <;> rfl
      rcases hl with hl | hl
      · rw [hl] at hs
        cases e with
        | pipelineHostCall ci' mi' mp' =>
          obtain ⟨rfl, q1, q2⟩ := hs
          exact ⟨mi', mp', ts, .inl rfl, tree_look_enum (arr hmi q1 (by rw [obj]; simp)), params (by rw [obj]; simp) q2, hdec⟩
        | _ => exact hs.elim
      · rw [hl] at hs
        cases e with
        | runspacePoolHostCall ci' mi' mp' =>
          obtain ⟨rfl, q1, q2⟩ := hs
          exact ⟨mi', mp', ts, .inr rfl, tree_look_enum (arr hmi q1 (by rw [obj]; simp)), params (by rw [obj]; simp) q2, hdec⟩
        | _ => exact hs.elim
    | hostReply ci r =>
      obtain ⟨t, mi, mr, hen, hl, hmi, hmr⟩ := hc
      obtain ⟨t', ht', hdec⟩ := C46_reply hv
      rw [ht'] at hen
      cases hen
      have obj : p.letter.objects = [mi, mr, .nil] := by rcases hl with hl | hl <;> rw [hl] <;> rfl
      rcases hl with hl | hl
      · rw [hl] at hs
        cases e with
        | pipelineHostResponse ci' mi' mr' me' =>
          obtain ⟨rfl, q1, q2, q3⟩ := hs
          cases q3
          exact ⟨mi', mr', t, .inl rfl, tree_look_enum (arr hmi q1 (by rw [obj]; simp)), arr hmr q2 (by rw [obj]; simp), hdec⟩
        | _ => exact hs.elim
      · rw [hl] at hs
        cases e with
        | runspacePoolHostResponse ci' mi' mr' me' =>
          obtain ⟨rfl, q1, q2, q3⟩ := hs
          cases q3
          exact ⟨mi', mr', t, .inr rfl, tree_look_enum (arr hmi q1 (by rw [obj]; simp)), arr hmr q2 (by rw [obj]; simp), hdec⟩
        | _ => exact hs.elim
    | pipeline q peer =>
      obtain ⟨m, t, a, o, h, k, hm, ht, hl, ta, to, th, tk⟩ := hc
      obtain ⟨hne, hd⟩ := hv
      obtain ⟨t', ht', hread⟩ := C46_host_info (i := q.host) hd
      rw [ht'] at ht
      cases ht
      have hhost : m.hostInfo = q.host := by
        unfold PowerShell.toRemoting at hm
        rw [if_neg hne] at hm
        cases hm; rfl
      have obj : p.letter.objects = [a, o, h, k] := by rw [hl]; rfl
      rw [hl] at hs
      cases e with
      | createPipeline i' a' o' y' h' c' n' =>
        obtain ⟨rfl, q1, q2, rfl, q3, q4, rfl⟩ := hs
        obtain ⟨m', q', hm', hq', _⟩ := (C31 q peer).2 hne
        rw [hm'] at hm
        cases hm
        refine ⟨_, _, _, _, _, _, _, _, _, _, _, _, _, _, q', rfl, .bool rfl, arr ta q1 (by rw [obj]; simp), arr to q2 (by rw [obj]; simp),
          .bool rfl, arr th q3 (by rw [obj]; simp), arr tk q4 (by rw [obj]; simp), .bool rfl, ?_, C31_settings q q' m peer hm' hq',
          C31_statements q q' m peer hm' hq'⟩
        rw [pipeline_read m (by rw [hhost]; exact hread)]
        exact hq'
      | _ => exact hs.elim
    | opening min max h =>
      obtain ⟨t, th, a, k, g, ht, hl, hk⟩ := hc
      obtain ⟨t', ht', hread⟩ := C46_host_info (i := h) hv
      rw [ht'] at ht
      cases ht
      have obj : p.letter.objects = [th, a, k, g] := by rw [hl]; rfl
      rw [hl] at hs
      cases e with
      | initRunspacePool lo hi t2 a2 h2 g2 =>
        obtain ⟨rfl, rfl, _, _, q3, _⟩ := hs
        exact ⟨t2, a2, h2, g2, t, rfl, arr hk q3 (by rw [obj]; simp), hread⟩
      | _ => exact hs.elim

end Verif
