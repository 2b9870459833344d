import Verif.Proof.Session

/-! # Agreement between a client and a server about requests and limits (C17, C18) -/

namespace Verif
open Pool

/-- What a message of the server does to the limits of a client with these handlers. -/
def effect (H : Dict Int (Option Handler)) (l : Int × Int) (m : Msg) : Int × Int :=
  match responseOf m with
  | some (.bool true, ci) => handled (H.get? ci).join l
  | _ => (initOf m).getD l

/-- What is known about the requests of a client: `H` and `n` its handlers and call id counter,
`reqs` the requests in flight, `E` and `K` the tables of the server, `ans` the ids answered so
far, `toC` the messages in flight to the client, `lc` and `ls` the limits, `iss` the requests made
by the client. -/
structure Core (H : Dict Int (Option Handler)) (n : Nat) (reqs : List (Int × Option Handler))
    (E : Dict Int Msg) (K : Dict Int (Option Handler)) (ans : List Int) (toC : List Msg)
    (lc ls : Int × Int) (iss : List (Int × Option Handler)) : Prop where
  issued : List.Perm (iss.map Prod.fst) (reqs.map Prod.fst ++ E.keys ++ ans)
  asked : ∀ ci h, ci ∈ iss.map Prod.fst → H.get? ci = some h → (ci, h) ∈ iss
  nodup : (reqs.map Prod.fst ++ E.keys ++ ans).Nodup
  handlersNodup : H.keys.Nodup
  handlersLt : ∀ ci ∈ H.keys, ci < n
  ansLt : ∀ ci ∈ ans, ci < n
  inFlight : ∀ x ∈ reqs, H.get? x.1 = some x.2
  tables : K.keys = E.keys
  recorded : ∀ ci m, E.get? ci = some m → ∃ h, requestOf m = some (ci, h) ∧ K.get? ci = some h ∧
    H.get? ci = some h
  coming : ∀ x ∈ toC.filterMap responseOf, x.2 ∈ ans ∧ ∃ h, H.get? x.2 = some h ∧
    (h ≠ none → ∃ b, x.1 = .bool b)
  comingNodup : ((toC.filterMap responseOf).map Prod.snd).Nodup
  limits : toC.foldl (effect H) lc = ls

theorem foldl_effect_congr {H H' : Dict Int (Option Handler)} (ms : List Msg)
    (h : ∀ x ∈ ms.filterMap responseOf, H'.get? x.2 = H.get? x.2) (l : Int × Int) :
    ms.foldl (effect H') l = ms.foldl (effect H) l := by
  induction ms generalizing l with
  | nil => rfl
  | cons m ms ih =>
    have h1 : effect H' l m = effect H l m := by
      unfold effect
      cases hr : responseOf m with
      | none => rfl
      | some x =>
        have := h x (by simp [hr])
        obtain ⟨r, ci⟩ := x
        cases r with
        | int _ => rfl
        | bool b => cases b <;> simp_all
    simp only [List.foldl_cons, h1]
    exact ih (fun x hx => h x (by
      simp only [List.filterMap_cons]
      split
      · exact hx
      · exact List.mem_cons_of_mem _ hx)) _

section
variable {H : Dict Int (Option Handler)} {n : Nat} {reqs : List (Int × Option Handler)}
  {E : Dict Int Msg} {K : Dict Int (Option Handler)} {ans : List Int} {toC : List Msg}
  {lc ls : Int × Int} {iss : List (Int × Option Handler)}

theorem get?_mem_keys {α β : Type} [DecidableEq α] {d : Dict α β} {k : α} {v : β}
    (h : d.get? k = some v) : k ∈ d.keys := by
  refine Decidable.byContradiction fun hn => ?_
  rw [(Dict.get?_eq_none d k).mpr hn] at h
  cases h

theorem mem_keys_get? {α β : Type} [DecidableEq α] {d : Dict α β} {k : α}
    (h : k ∈ d.keys) : ∃ v, d.get? k = some v := by
  cases hg : d.get? k with
  | none => exact absurd h ((Dict.get?_eq_none d k).mp hg)
  | some v => exact ⟨v, rfl⟩

/-- The server queues something that concerns neither requests nor limits. -/
theorem Core.quiet (c : Core H n reqs E K ans toC lc ls iss) (new : List Msg)
    (hn : ∀ m ∈ new, responseOf m = none ∧ initOf m = none) :
    Core H n reqs E K ans (toC ++ new) lc ls iss := by
  have h1 : new.filterMap responseOf = [] := by
    rw [List.filterMap_eq_nil_iff]; exact fun m hm => (hn m hm).1
  have h2 : ∀ l, new.foldl (effect H) l = l := by
    intro l
    induction new generalizing l with
    | nil => rfl
    | cons m ms ih =>
      have := hn m (by simp)
      simp only [List.foldl_cons, effect, this, Option.getD_none]
      exact ih (fun m' hm' => hn m' (by simp [hm'])) (by simp_all) l
  exact { c with
    coming := by rw [List.filterMap_append, h1, List.append_nil]; exact c.coming
    comingNodup := by rw [List.filterMap_append, h1, List.append_nil]; exact c.comingNodup
    limits := by rw [List.foldl_append, c.limits, h2] }

theorem keys_set_new {α β : Type} [DecidableEq α] {d : Dict α β} {k : α} {v : β}
    (h : k ∉ d.keys) : (d.set k v).keys = d.keys ++ [k] := by
  induction d with
  | nil => rfl
  | cons x d ih =>
    obtain ⟨a, b⟩ := x
    simp only [Dict.keys, List.map_cons, List.mem_cons, not_or] at h
    have ha : ¬ a = k := fun e => h.1 e.symm
    simp only [Dict.set, ha, if_false, Dict.keys, List.map_cons, List.cons_append]
    congr 1
    exact ih h.2

theorem Core.fresh (c : Core H n reqs E K ans toC lc ls iss) :
    (n : Int) ∉ reqs.map Prod.fst ++ E.keys ++ ans := by
  intro hm
  simp only [List.mem_append, or_assoc] at hm
  rcases hm with hm | hm | hm
  · obtain ⟨x, hx, hxn⟩ := List.mem_map.mp hm
    have := c.handlersLt _ (get?_mem_keys (c.inFlight x hx)); omega
  · obtain ⟨m, hg⟩ := mem_keys_get? hm
    obtain ⟨h', _, _, h3⟩ := c.recorded _ m hg
    have := c.handlersLt _ (get?_mem_keys h3); omega
  · have := c.ansLt _ hm; omega

/-- The client registers a handler under a new id. -/
theorem Core.register (c : Core H n reqs E K ans toC lc ls iss) (h : Option Handler) :
    Core (H.set (n : Int) h) (n + 1) reqs E K ans toC lc ls iss := by
  have hfresh : (n : Int) ∉ H.keys := fun hm => by have := c.handlersLt _ hm; omega
  have hget : ∀ ci x, H.get? ci = some x → (H.set (n : Int) h).get? ci = some x := by
    intro ci x hx
    rw [Dict.get?_set_ne _ _ ?_]
    · exact hx
    · intro e; exact hfresh (e ▸ get?_mem_keys hx)
  exact { c with
    asked := by
      intro ci h' hci hg
      by_cases he : (n : Int) = ci
      · subst he
        exact absurd (c.issued.mem_iff.mp hci) c.fresh
      · rw [Dict.get?_set_ne _ _ he] at hg
        exact c.asked ci h' hci hg
    handlersNodup := Dict.keys_nodup_set _ _ _ c.handlersNodup
    handlersLt := by
      intro ci hci
      rw [keys_set_new hfresh, List.mem_append, List.mem_singleton] at hci
      rcases hci with hci | rfl
      · have := c.handlersLt _ hci; omega
      · omega
    ansLt := fun ci hci => by have := c.ansLt _ hci; omega
    inFlight := fun x hx => hget _ _ (c.inFlight x hx)
    recorded := fun ci m hm => by
      obtain ⟨h', h1, h2, h3⟩ := c.recorded ci m hm
      exact ⟨h', h1, h2, hget _ _ h3⟩
    coming := fun x hx => by
      obtain ⟨h0, h', h1, h2⟩ := c.coming x hx
      exact ⟨h0, h', hget _ _ h1, h2⟩
    limits := by
      rw [foldl_effect_congr (H := H)]
      · exact c.limits
      · intro x hx
        obtain ⟨_, h', h1, _⟩ := c.coming x hx
        rw [h1, hget _ _ h1] }

/-- The client queues the request it just registered. -/
theorem Core.request (c : Core H n reqs E K ans toC lc ls iss) (h : Option Handler) :
    Core (H.set (n : Int) h) (n + 1) (reqs ++ [((n : Int), h)]) E K ans toC lc ls (iss ++ [((n : Int), h)]) := by
  have c' := c.register h
  have hfresh := c.fresh
  exact { c' with
    issued := by
      simp only [List.map_append, List.map_cons, List.map_nil, List.append_assoc]
      refine ((List.Perm.append_right _ c.issued)).trans ?_
      simp only [List.append_assoc]
      refine List.Perm.append_left _ ?_
      rw [← List.append_assoc]
      exact List.perm_append_comm
    asked := by
      intro ci h' hci hg
      simp only [List.map_append, List.map_cons, List.map_nil, List.mem_append, List.mem_singleton] at hci ⊢
      by_cases he : (n : Int) = ci
      · subst he; rw [Dict.get?_set_self] at hg; cases hg; exact Or.inr rfl
      · rw [Dict.get?_set_ne _ _ he] at hg
        exact Or.inl (c.asked ci h' (hci.resolve_right fun e => he e.symm) hg)
    nodup := by
      have hnd := c.nodup
      simp only [List.map_append, List.map_cons, List.map_nil]
      simp only [List.append_assoc] at hfresh hnd ⊢
      have hp : List.Perm (reqs.map Prod.fst ++ ([(n : Int)] ++ (E.keys ++ ans)))
          ((n : Int) :: (reqs.map Prod.fst ++ (E.keys ++ ans))) := by
        simp
      rw [hp.nodup_iff, List.nodup_cons]
      exact ⟨hfresh, hnd⟩
    inFlight := by
      intro x hx
      rw [List.mem_append, List.mem_singleton] at hx
      rcases hx with hx | rfl
      · exact c'.inFlight x hx
      · exact Dict.get?_set_self _ _ _ }

/-- The server receives a request. -/
theorem Core.record {ci : Int} {h : Option Handler} {m : Msg}
    (c : Core H n ((ci, h) :: reqs) E K ans toC lc ls iss) (hm : requestOf m = some (ci, h)) :
    Core H n reqs (E.set ci m) (K.set ci h) ans toC lc ls iss := by
  have hnd := c.nodup
  simp only [List.map_cons, List.cons_append, List.nodup_cons] at hnd
  have hE : ci ∉ E.keys := fun h => hnd.1 (by simp [h])
  have hK : ci ∉ K.keys := by rw [c.tables]; exact hE
  exact { c with
    issued := by
      refine c.issued.trans ?_
      rw [keys_set_new hE]
      simp only [List.map_cons, List.cons_append, List.append_assoc, List.nil_append]
      rw [← List.append_assoc, ← List.append_assoc]
      exact List.perm_middle.symm
    nodup := by
      rw [keys_set_new hE]
      have hp : List.Perm (reqs.map Prod.fst ++ (E.keys ++ [ci]) ++ ans)
          (ci :: (reqs.map Prod.fst ++ E.keys ++ ans)) := by
        simp only [List.append_assoc, List.singleton_append]
        rw [← List.append_assoc, ← List.append_assoc]
        exact List.perm_middle
      rw [hp.nodup_iff, List.nodup_cons]
      exact hnd
    inFlight := fun x hx => c.inFlight x (by simp [hx])
    tables := by rw [keys_set_new hE, keys_set_new hK, c.tables]
    recorded := by
      intro ci' m' hg
      by_cases he : ci = ci'
      · subst he
        rw [Dict.get?_set_self] at hg; cases hg
        exact ⟨h, hm, Dict.get?_set_self _ _ _, c.inFlight (ci, h) (by simp)⟩
      · rw [Dict.get?_set_ne _ _ he] at hg
        obtain ⟨h', h1, h2, h3⟩ := c.recorded ci' m' hg
        exact ⟨h', h1, by rw [Dict.get?_set_ne _ _ he]; exact h2, h3⟩ }

theorem keys_erase_eq {α β γ : Type} [DecidableEq α] {d : Dict α β} {e : Dict α γ}
    (h : d.keys = e.keys) (k : α) : (d.erase k).keys = (e.erase k).keys := by
  induction d generalizing e with
  | nil =>
    cases e with
    | nil => rfl
    | cons x e => simp [Dict.keys] at h
  | cons x d ih =>
    cases e with
    | nil => simp [Dict.keys] at h
    | cons y e =>
      obtain ⟨a, b⟩ := x
      obtain ⟨a', b'⟩ := y
      simp only [Dict.keys, List.map_cons, List.cons.injEq] at h
      obtain ⟨rfl, h⟩ := h
      simp only [Dict.erase]
      split
      · exact h
      · simp only [Dict.keys, List.map_cons, List.cons.injEq, true_and]
        exact ih h

theorem keys_erase_perm {α β : Type} [DecidableEq α] {d : Dict α β} {k : α} (h : k ∈ d.keys) :
    List.Perm d.keys (k :: (d.erase k).keys) := by
  induction d with
  | nil => simp [Dict.keys] at h
  | cons x d ih =>
    obtain ⟨a, b⟩ := x
    simp only [Dict.erase]
    split
    · rename_i he; subst he; exact List.Perm.refl _
    · rename_i he
      simp only [Dict.keys, List.map_cons, List.mem_cons] at h ⊢
      rcases h with h | h
      · exact absurd h.symm he
      · exact ((ih h).cons a).trans (List.Perm.swap _ _ _)

theorem initOf_response {m : Msg} {x : Resp × Int} (h : responseOf m = some x) : initOf m = none := by
  unfold responseOf at h
  split at h
  · rename_i h1 h2; simp [initOf, h1]
  · cases h

/-- The server answers a recorded request. -/
theorem Core.answer {ci : Int} {h : Option Handler} {q m : Msg} {r : Resp}
    (c : Core H n reqs E K ans toC lc ls iss) (hq : E.get? ci = some q) (hh : K.get? ci = some h)
    (hs : h ≠ none → ∃ b, r = .bool b) (hm : responseOf m = some (r, ci)) :
    Core H n reqs (E.erase ci) (K.erase ci) (ans ++ [ci]) (toC ++ [m]) lc
      (if r = .bool true then handled h ls else ls) iss := by
  have hE : ci ∈ E.keys := get?_mem_keys hq
  obtain ⟨h', h1, h2, h3⟩ := c.recorded ci q hq
  rw [hh] at h2
  cases h2
  have hnd := c.nodup
  have hEn : E.keys.Nodup := by
    rw [List.nodup_append, List.nodup_append] at hnd; exact hnd.1.2.1
  have hKn : K.keys.Nodup := by rw [c.tables]; exact hEn
  have hnew : ci ∉ ans := by
    rw [List.nodup_append] at hnd
    intro ha
    exact hnd.2.2 ci (by simp [hE]) ci ha rfl
  have hE' : ∀ ci' m', (E.erase ci).get? ci' = some m' → E.get? ci' = some m' ∧ ci ≠ ci' := by
    intro ci' m' hg
    by_cases he : ci = ci'
    · subst he
      rw [Dict.get?_erase_self _ _ hEn] at hg
      cases hg
    · rw [Dict.get?_erase_ne _ he] at hg; exact ⟨hg, he⟩
  have hp : List.Perm (reqs.map Prod.fst ++ (E.erase ci).keys ++ (ans ++ [ci]))
      (reqs.map Prod.fst ++ E.keys ++ ans) := by
    refine List.Perm.trans ?_
      (((keys_erase_perm hE).symm.append_left (reqs.map Prod.fst)).append_right ans)
    simp only [List.append_assoc]
    refine List.Perm.append_left _ ?_
    rw [← List.append_assoc]
    refine (List.perm_append_comm).trans ?_
    simp
  exact { c with
    issued := c.issued.trans hp.symm
    nodup := by
      rw [hp.nodup_iff]
      exact hnd
    ansLt := by
      intro x hx
      rw [List.mem_append, List.mem_singleton] at hx
      rcases hx with hx | rfl
      · exact c.ansLt x hx
      · exact c.handlersLt _ (get?_mem_keys h3)
    tables := keys_erase_eq c.tables ci
    recorded := by
      intro ci' m' hg
      obtain ⟨hg', hne⟩ := hE' ci' m' hg
      obtain ⟨h', h1, h2, h3⟩ := c.recorded ci' m' hg'
      exact ⟨h', h1, by rw [Dict.get?_erase_ne _ hne]; exact h2, h3⟩
    coming := by
      intro x hx
      simp only [List.filterMap_append, List.filterMap_cons, hm, List.filterMap_nil,
        List.mem_append, List.mem_singleton] at hx ⊢
      rcases hx with hx | rfl
      · obtain ⟨h0, hr⟩ := c.coming x hx
        exact ⟨Or.inl h0, hr⟩
      · exact ⟨Or.inr rfl, h, h3, hs⟩
    comingNodup := by
      simp only [List.filterMap_append, List.filterMap_cons, hm, List.filterMap_nil, List.map_append,
        List.map_cons, List.map_nil]
      rw [List.nodup_append]
      refine ⟨c.comingNodup, by simp, ?_⟩
      intro a ha b hb
      obtain ⟨x, hx, rfl⟩ := List.mem_map.mp ha
      simp at hb; subst hb
      rintro rfl
      exact hnew (c.coming x hx).1
    limits := by
      rw [List.foldl_append, c.limits]
      simp only [List.foldl_cons, List.foldl_nil, effect, hm]
      cases r with
      | int x => simp [initOf_response hm]
      | bool b => cases b <;> simp [initOf_response hm, h3] }

/-- The server answers a connect with its limits. -/
theorem Core.initData {m : Msg} (c : Core H n reqs E K ans toC lc ls iss) (hm : initOf m = some ls)
    (hr : responseOf m = none) : Core H n reqs E K ans (toC ++ [m]) lc ls iss :=
  { c with
    coming := by
      simp only [List.filterMap_append, List.filterMap_cons, hr, List.filterMap_nil, List.append_nil]
      exact c.coming
    comingNodup := by
      simp only [List.filterMap_append, List.filterMap_cons, hr, List.filterMap_nil, List.append_nil]
      exact c.comingNodup
    limits := by
      rw [List.foldl_append]
      simp [effect, hr, hm] }

/-- The client receives an answer. -/
theorem Core.response {m : Msg} {r : Resp} {ci : Int}
    (c : Core H n reqs E K ans (m :: toC) lc ls iss) (hm : responseOf m = some (r, ci)) :
    Core (H.erase ci) n reqs E K ans toC (effect H lc m) ls iss := by
  have hci : ci ∈ ans := (c.coming (r, ci) (by simp [hm])).1
  have hnd := c.nodup
  have hget : ∀ ci' x, ci' ≠ ci → H.get? ci' = some x → (H.erase ci).get? ci' = some x := by
    intro ci' x hne hx
    rw [Dict.get?_erase_ne _ (Ne.symm hne)]; exact hx
  have hcn := c.comingNodup
  simp only [List.filterMap_cons, hm, List.map_cons, List.nodup_cons] at hcn
  have hne : ∀ x ∈ toC.filterMap responseOf, x.2 ≠ ci := by
    rintro x hx rfl
    exact hcn.1 (List.mem_map.mpr ⟨x, hx, rfl⟩)
  exact { c with
    asked := by
      intro ci' h' hci' hg
      by_cases he : ci = ci'
      · subst he; rw [Dict.get?_erase_self _ _ c.handlersNodup] at hg; cases hg
      · rw [Dict.get?_erase_ne _ he] at hg
        exact c.asked ci' h' hci' hg
    handlersNodup := Dict.keys_nodup_erase _ _ c.handlersNodup
    handlersLt := by
      intro x hx
      refine c.handlersLt x ?_
      obtain ⟨v, hv⟩ := mem_keys_get? hx
      by_cases he : ci = x
      · subst he; rw [Dict.get?_erase_self _ _ c.handlersNodup] at hv; cases hv
      · rw [Dict.get?_erase_ne _ he] at hv; exact get?_mem_keys hv
    inFlight := by
      intro x hx
      refine hget _ _ ?_ (c.inFlight x hx)
      rintro rfl
      rw [List.append_assoc, List.nodup_append] at hnd
      exact hnd.2.2 x.1 (List.mem_map.mpr ⟨x, hx, rfl⟩) x.1 (by simp [hci]) rfl
    recorded := by
      intro ci' m' hg
      obtain ⟨h', h1, h2, h3⟩ := c.recorded ci' m' hg
      refine ⟨h', h1, h2, hget _ _ ?_ h3⟩
      rintro rfl
      rw [List.nodup_append] at hnd
      exact hnd.2.2 ci' (by simp [get?_mem_keys hg]) ci' hci rfl
    coming := by
      intro x hx
      obtain ⟨h0, h', h1, h2⟩ := c.coming x (by simp [hm, hx])
      exact ⟨h0, h', hget _ _ (hne x hx) h1, h2⟩
    comingNodup := hcn.2
    limits := by
      have := c.limits
      simp only [List.foldl_cons] at this
      rw [← this]
      refine foldl_effect_congr _ ?_ _
      intro x hx
      rw [Dict.get?_erase_ne _ (Ne.symm (hne x hx))] }

/-- The client receives something else, or fails to read an answer that changes no limit. -/
theorem Core.delivered {m : Msg} (c : Core H n reqs E K ans (m :: toC) lc ls iss) :
    Core H n reqs E K ans toC (effect H lc m) ls iss :=
  { c with
    coming := fun x hx => c.coming x (by
      simp only [List.filterMap_cons]
      split
      · exact hx
      · exact List.mem_cons_of_mem _ hx)
    comingNodup := by
      have := c.comingNodup
      simp only [List.filterMap_cons] at this
      split at this
      · exact this
      · simp only [List.map_cons, List.nodup_cons] at this; exact this.2
    limits := c.limits }

end
end Verif
