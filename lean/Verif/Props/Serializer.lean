import Verif.Spec.Clixml
import Verif.Model.Library
import Verif.Proof.Clixml
import Verif.Proof.SerializerRuns
import Verif.Proof.SerializerPaths
import Verif.Proof.Progress
import Verif.Proof.SerializerCheck
import Verif.Proof.Registry
import Verif.Props.StringEsc

/-! # C41, C42, C43, C61, C62: object graphs come back -/

namespace Verif

/-! ## The library meets what the theorems ask of it -/

/-- The collection classes of the library are collections of their kind. -/
theorem library_standard : library.Standard where
  list := fun k => by cases k <;> rfl
  queue := rfl
  dict := rfl
  prim := fun p => by
    cases p with
    | int k _ => cases k <;> rfl
    | str k _ => cases k <;> rfl
    | float k _ => cases k <;> rfl
    | _ => rfl
  object := by decide +kernel

theorem library_loaded : library = { reg := loadedLibrary, info := library.info } := by
  rw [← load_library]; rfl

/-! ## C41 -/

/-- C41, for a document of any number of values, each of them with any graph of objects behind it, cyclic
or not: if the values are serialized then reading the elements gives values that stand for them. `φ` tells
which old object a new object stands for. A new object has the class the registry has for its type names,
the type names (with `Deserialized.` in front for classes that are not known), the data and all properties
with their names in order, and the string form unless it is a member of a registered enum class
(`C41_violated_member`). `shown` is what Python shows: members of an enum class show what their class has. -/
theorem C41_partial (E : TextEnv) (hE : ExtendsAscii E.uni) (L : Lib) (std : L.Standard) (H : Heap)
    (vs : List (PVal × Option ClixmlStream)) (ok : GraphOk E L H (vs.map Prod.fst)) (n m : Nat) (hnm : n < m)
    (xs : List Xml) (s : SState) (hser : serDoc E H n vs {} = .ok (xs, s)) :
    ∃ dvs ds φ, readDoc E L m xs {} = .ok (dvs, ds) ∧
      All2 (fun v d => VMatch φ v.1 d.1 ∧ d.2 = v.2.getD .output) vs dvs ∧
      ∀ b a, φ b = some a → ∃ d, ds.heap[b]? = some d ∧ OMatch L φ (H a) (ds.shown L d) := by
  obtain ⟨dvs, ds, φ, h1, st, hm⟩ := doc_sim hE std (good_reach ok) hnm vs {} xs s {} _
    (fun v hv a e => .root (by rw [← e]; exact List.mem_map_of_mem hv))
    (fun v hv => ok.vals _ (List.mem_map_of_mem hv)) (inv_empty L H _) hser
  refine ⟨dvs, ds, φ, h1, hm, fun b a e => ?_⟩
  obtain ⟨d, hd, m⟩ := st.done b a (Nat.zero_le _) e
  exact ⟨d, hd, shown_match std st.inv.clean ((good_reach ok).objs a (st.inv.dom b a e).2) m⟩

/-- C41, one value without a document. -/
theorem C41_value_partial (E : TextEnv) (hE : ExtendsAscii E.uni) (L : Lib) (std : L.Standard) (H : Heap)
    (v : PVal) (ok : GraphOk E L H [v]) (n m : Nat) (hnm : n < m) (x : Xml) (s : SState)
    (hser : ser E H n v {} = .ok (x, s)) :
    ∃ d ds φ, deser E L m x {} = .ok (d, ds) ∧ VMatch φ v d ∧
      ∀ b a, φ b = some a → ∃ d, ds.heap[b]? = some d ∧ OMatch L φ (H a) (ds.shown L d) := by
  obtain ⟨d, ds, φ, h1, st, hm⟩ := sim_ser hE std (good_reach ok) n m hnm v {} x s {} _
    (fun a e => .root (by simp [e])) (ok.vals v (by simp)) (inv_empty L H _) hser
  refine ⟨d, ds, φ, h1, hm, fun b a e => ?_⟩
  obtain ⟨d, hd, m⟩ := st.done b a (Nat.zero_le _) e
  exact ⟨d, hd, shown_match std st.inv.clean ((good_reach ok).objs a (st.inv.dom b a e).2) m⟩

/-- C41: serializing succeeds, with a recursion limit that depends only on the number of objects that can
be referred to (`ks`) and on how deep the others nest (`R`): every cycle goes through an object that can be
referred to. -/
theorem C41_serializes (E : TextEnv) (H : Heap) (v : PVal) (rank : Nat → Nat) (R : Nat) (ks : List Nat)
    (down : ∀ a b, Reach H [v] a → PVal.ref b ∈ (H a).values → (H b).key = none → rank b < rank a)
    (bound : ∀ a, Reach H [v] a → rank a ≤ R) (keys : ∀ a k, Reach H [v] a → (H a).key = some k → k ∈ ks)
    (n : Nat) (hn : (ks.length + 1) * (R + 2) ≤ n) : ∃ x s, ser E H n v {} = .ok (x, s) := by
  have hr : Ranked H (Reach H [v]) rank R ks := ⟨down, bound, keys, fun a b h hb => .step h hb⟩
  have hl : SState.left ks {} ≤ ks.length := List.length_filter_le _ _
  have hm := Nat.mul_le_mul_right (R + 2) hl
  rw [Nat.succ_mul] at hn
  obtain ⟨x, s, h, _⟩ := ser_runs E hr n [v] (fun a h => .root h) v (by simp) {} (fun k r h => by cases h) (by
    cases v with
    | ref a =>
      have := bound a (.root (by simp))
      simp only [enough]
      split <;> omega
    | _ => simp only [enough]; omega)
  exact ⟨x, s, h⟩

/-- A list that has itself as an entry cannot be serialized whatever the recursion limit: lists have no
reference ids, as they are not hashable. -/
theorem C41_cyclic_list (E : TextEnv) (H : Heap) (a : Nat) (k : ListKind) (items : List PVal)
    (hd : (H a).data = .list k (.ref a :: items)) (hk : (H a).key = none) (ha : (H a).adapted = [])
    (he : (H a).extended = []) (n : Nat) (s : SState) : ser E H n (.ref a) s = .error .recursionError := by
  induction n generalizing s with
  | zero => rfl
  | succ n ih =>
    show serObj E (ser E H n) a (H a) s = _
    unfold serObj
    have hb : bareExt (H a) = none := by unfold bareExt; rw [hd]
    rw [hb, hk]
    simp only [getRefId, Bool.false_eq_true, ↓reduceIte]
    unfold serBody serGroup
    rw [ha, he]
    simp only [↓reduceIte]
    unfold serContent
    rw [hd]
    simp only [serItems, ih]

/-! ### A graph with cycles, sharing, a list, a dict, an enum member and a primitive with a property -/

/-- The objects. -/
def exampleHeap : Heap
  | 0 => { key := some 0, types := [txt! "My.Type", txt! "System.Object"], toStr := some (txt! "me"),
           adapted := [(txt! "Id", .prim (.int .psInt 5)), (txt! "Self", .ref 0)],
           extended := [(txt! "List", .ref 1), (txt! "Color", .ref 2), (txt! "Text", .ref 4)] }
  | 1 => { data := .list .list [.nil, .bool true, .prim (.str .string (txt! "a_x")), .ref 0, .ref 3],
           types := [txt! "System.Collections.ArrayList", txt! "System.Object"] }
  | 2 => { key := some 1, data := .enum (.int .psInt 12), toStr := some (txt! "Red"),
           types := [txt! "System.ConsoleColor", txt! "System.Enum", txt! "System.ValueType", txt! "System.Object"] }
  | 3 => { data := .dict [(.prim (.str .string (txt! "k")), .ref 0), (.prim (.int .psInt 1), .ref 2)],
           types := [txt! "System.Collections.Hashtable", txt! "System.Object"] }
  | _ => { key := some 2, data := .ext (.str .string (txt! "x")),
           types := [txt! "System.String", txt! "System.Object"],
           extended := [(txt! "Note", .prim (.plainInt 7))] }

/-- An environment with ASCII digits only and years of four digits. -/
def plainEnv : TextEnv where
  uni := asciiDigit
  year4 := natStr

theorem example_ok : GraphOk plainEnv library exampleHeap [.ref 0] :=
  graphCheck_ok plainEnv (addrs := [0, 1, 2, 3, 4]) (by decide +kernel)

/-- Beside `C41_partial` and `C41_value_partial`: the graph is serialized and read. -/
example (m : Nat) (hm : 8 < m) : ∃ x s d ds φ, ser plainEnv exampleHeap 8 (.ref 0) {} = .ok (x, s) ∧
    deser plainEnv library m x {} = .ok (d, ds) ∧ VMatch φ (.ref 0) d ∧
    ∀ b a, φ b = some a → ∃ d, ds.heap[b]? = some d ∧ OMatch library φ (exampleHeap a) (ds.shown library d) := by
  obtain ⟨x, s, hx⟩ : ∃ x s, ser plainEnv exampleHeap 8 (.ref 0) {} = .ok (x, s) := ⟨_, _, rfl⟩
  obtain ⟨d, ds, φ, h⟩ := C41_value_partial plainEnv (fun _ _ => rfl) library library_standard exampleHeap (.ref 0)
    example_ok 8 m hm x s hx
  exact ⟨x, s, d, ds, φ, hx, h⟩

/-- Beside `C41_serializes`: three keys, and the list and the dict nest two deep. -/
example : ∃ x s, ser plainEnv exampleHeap 16 (.ref 0) {} = .ok (x, s) := by
  have small : ∀ a, Reach exampleHeap [.ref 0] a → a < 5 := by
    intro a h
    induction h with
    | root h => simp at h; omega
    | @step a b h hb ih =>
      have : a = 0 ∨ a = 1 ∨ a = 2 ∨ a = 3 ∨ a = 4 := by omega
      rcases this with rfl | rfl | rfl | rfl | rfl <;> simp [exampleHeap, PObj.values] at hb <;> omega
  refine C41_serializes plainEnv exampleHeap (.ref 0) (fun a => if a = 1 then 1 else if a = 3 then 0 else 2) 2 [0, 1, 2]
    ?_ ?_ ?_ 16 (by decide)
  · intro a b ha hb hk
    have := small a ha
    have : a = 0 ∨ a = 1 ∨ a = 2 ∨ a = 3 ∨ a = 4 := by omega
    rcases this with rfl | rfl | rfl | rfl | rfl <;> simp [exampleHeap, PObj.values] at hb
    · rcases hb with rfl | rfl | rfl | rfl <;> simp [exampleHeap] at hk ⊢
    · rcases hb with rfl | rfl <;> simp [exampleHeap] at hk ⊢
    · rcases hb with rfl | rfl <;> simp [exampleHeap] at hk
  · intro a ha
    split
    · omega
    · split <;> omega
  · intro a k ha hk
    have := small a ha
    have : a = 0 ∨ a = 1 ∨ a = 2 ∨ a = 3 ∨ a = 4 := by omega
    rcases this with rfl | rfl | rfl | rfl | rfl <;> simp [exampleHeap] at hk <;> simp [← hk]

/-- A list with itself as its only entry. -/
example (n : Nat) : ser plainEnv (fun _ => { data := .list .list [.ref 0] }) n (.ref 0) {} = .error .recursionError :=
  C41_cyclic_list plainEnv _ 0 .list [] rfl rfl rfl rfl n {}

/-! ### Where graphs do not come back -/

/-- A list that has its owner as an extended property and as an entry. -/
def ownedHeap : Heap
  | 0 => { data := .list .list [.ref 1], extended := [(txt! "Owner", .ref 1)] }
  | _ => { key := some 0, toStr := some (txt! "me") }

/-- C41 does not hold for a container with an object in a property and again among its entries: the
properties are written first and read last, so that the entry refers to an object that was not read yet. -/
theorem C41_violated (E : TextEnv) (n m : Nat) : ∃ x s,
    ser E ownedHeap (n + 3) (.ref 0) {} = .ok (x, s) ∧ deser E library (m + 3) x {} = .error .keyError :=
  ⟨_, _, rfl, rfl⟩

/-- A list, written by itself, with a string form. -/
def namedHeap : Heap := fun _ => { data := .list .list [], toStr := some (txt! "me") }

/-- The string form of a container is lost. -/
theorem C41_violated_string (E : TextEnv) (n m : Nat) : ∃ x s d ds,
    ser E namedHeap (n + 1) (.ref 0) {} = .ok (x, s) ∧ deser E library (m + 1) x {} = .ok (.ref 1, ds) ∧
    ds.heap[1]? = some d ∧ d.toStr = none :=
  ⟨_, _, _, _, rfl, rfl, rfl, rfl⟩

/-- An object with an extended property that is a member of an enum of the library, by a value that is no
member's. -/
def strangerHeap : Heap := fun _ => { key := some 0, data := .enum (.int .psInt 99), types :=
  [txt! "System.ConsoleColor", txt! "System.Enum", txt! "System.ValueType", txt! "System.Object"] }

set_option maxRecDepth 20000 in
/-- A value that an enum class of the reader does not have cannot be read. -/
theorem C41_violated_enum (E : TextEnv) (n m : Nat) : ∃ x s,
    ser E strangerHeap (n + 1) (.ref 0) {} = .ok (x, s) ∧ deser E library (m + 2) x {} = .error .valueError := by
  rw [library_loaded]
  exact ⟨_, _, rfl, rfl⟩

/-- Two members of an enum class of the library in a list, with their string forms. -/
def colorsHeap : Heap
  | 0 => { data := .list .list [.ref 1, .ref 2] }
  | 1 => { key := some 1, data := .enum (.int .psInt 12), toStr := some (txt! "Red"),
           types := [txt! "System.ConsoleColor", txt! "System.Enum", txt! "System.ValueType", txt! "System.Object"] }
  | _ => { key := some 2, data := .enum (.int .psInt 9), toStr := some (txt! "Blue"),
           types := [txt! "System.ConsoleColor", txt! "System.Enum", txt! "System.ValueType", txt! "System.Object"] }

set_option maxRecDepth 20000 in
set_option maxHeartbeats 2000000 in
/-- Members of an enum class do not come back with their own string form: the members of a class share one
`PSObject`, so that all of them have the string form of the one that was read last. -/
theorem C41_violated_member (E : TextEnv) (n m : Nat) : ∃ x s ds d,
    ser E colorsHeap (n + 2) (.ref 0) {} = .ok (x, s) ∧ deser E library (m + 3) x {} = .ok (.ref 1, ds) ∧
    DVal.at ds.heap (.ref 1) [.item 0] = some (.ref 2) ∧ ds.heap[2]? = some d ∧
    d.data = .prim (.int .psInt 12) ∧ (ds.shown library d).toStr = some (txt! "Blue") := by
  rw [library_loaded]
  exact ⟨_, _, _, _, rfl, rfl, rfl, rfl, rfl, rfl⟩

/-! ## Positions -/

theorem doc_positions {E : TextEnv} (hE : ExtendsAscii E.uni) {L : Lib} (std : L.Standard) {H : Heap}
    {vs : List (PVal × Option ClixmlStream)} (ok : GraphOk E L H (vs.map Prod.fst)) {n m : Nat} (hnm : n < m)
    {xs : List Xml} {s : SState} (hser : serDoc E H n vs {} = .ok (xs, s)) :
    ∃ dvs ds φ, readDoc E L m xs {} = .ok (dvs, ds) ∧
      (∀ i p, Both φ (docAt (H.completed L) vs i p) (readAt ds.heap dvs i p)) ∧ Inv L H (Reach H (vs.map Prod.fst)) s ds φ ∧
      ∀ b a, φ b = some a → ∃ d, ds.heap[b]? = some d ∧ OMatch L φ (H a) (ds.shown L d) := by
  obtain ⟨dvs, ds, φ, h1, st, hm⟩ := doc_sim hE std (good_reach ok) hnm vs {} xs s {} _
    (fun v hv a e => .root (by rw [← e]; exact List.mem_map_of_mem hv))
    (fun v hv => ok.vals _ (List.mem_map_of_mem hv)) (inv_empty L H _) hser
  have om : ∀ b a, φ b = some a → ∃ d, ds.heap[b]? = some d ∧ OMatch L φ (H a) d :=
    fun b a e => st.done b a (Nat.zero_le _) e
  refine ⟨dvs, ds, φ, h1, fun i p => ?_, st.inv, fun b a e => ?_⟩
  case refine_2 =>
    obtain ⟨d, hd, m⟩ := om b a e
    exact ⟨d, hd, shown_match std st.inv.clean ((good_reach ok).objs a (st.inv.dom b a e).2) m⟩
  unfold docAt readAt
  rcases hm.get i with ⟨h1, h2⟩ | ⟨v, d, h1, h2, h3⟩
  · rw [h1, h2]; exact .inl ⟨rfl, rfl⟩
  · rw [h1, h2]; exact path_match om p v.1 d.1 h3.1

theorem names_eq {φ : Nat → Option Nat} {l : List (PyStr × PVal)} {l' : List (PyStr × DVal)}
    (h : All2 (PMatch φ) l l') : l'.map Prod.fst = l.map Prod.fst := by
  induction h with
  | nil => rfl
  | cons h _ ih => rw [List.map_cons, List.map_cons, ih, h.1]

/-- C41 by positions: what is at any position of a document, going through properties and entries, is what
was there: `None`, the same bool, the same primitive, or a new object for an object. There is nothing at
positions where there was nothing. Positions are counted with the properties that the class of the new
object declares; where the old object has none of that name, the new one has `None`. -/
theorem C41_at_partial (E : TextEnv) (hE : ExtendsAscii E.uni) (L : Lib) (std : L.Standard) (H : Heap)
    (vs : List (PVal × Option ClixmlStream)) (ok : GraphOk E L H (vs.map Prod.fst)) (n m : Nat) (hnm : n < m)
    (xs : List Xml) (s : SState) (hser : serDoc E H n vs {} = .ok (xs, s)) :
    ∃ dvs ds, readDoc E L m xs {} = .ok (dvs, ds) ∧ ∀ i p,
      match docAt (H.completed L) vs i p with
      | none => readAt ds.heap dvs i p = none
      | some .nil => readAt ds.heap dvs i p = some .nil
      | some (.bool b) => readAt ds.heap dvs i p = some (.bool b)
      | some (.prim q) => readAt ds.heap dvs i p = some (.prim q.norm)
      | some (.ref a) => ∃ b d, readAt ds.heap dvs i p = some (.ref b) ∧ ds.heap[b]? = some d ∧
          (ds.shown L d).cls = resultClass L (H a) ∧ (ds.shown L d).types = resultTypes L (H a) ∧
          (IsMember L (H a) ∨ (ds.shown L d).toStr = resultString (H a)) ∧
          (ds.shown L d).adapted.map Prod.fst = (L.completed (H a)).adapted.map Prod.fst ∧
          (ds.shown L d).extended.map Prod.fst = (L.completed (H a)).extended.map Prod.fst := by
  obtain ⟨dvs, ds, φ, h1, hp, _, om⟩ := doc_positions hE std ok hnm hser
  refine ⟨dvs, ds, h1, fun i p => ?_⟩
  rcases hp i p with ⟨h2, h3⟩ | ⟨v, d, h2, h3, h4⟩
  · rw [h2, h3]
  · rw [h2, h3]
    cases v with
    | nil => cases h4; rfl
    | bool b => cases h4; rfl
    | prim q => cases h4; rfl
    | ref a =>
      obtain ⟨b, rfl, e⟩ := h4
      obtain ⟨d, hd, m⟩ := om b a e
      exact ⟨b, d, rfl, hd, m.cls, m.types, m.string, names_eq m.adapted, names_eq m.extended⟩

/-! ## C42 -/

/-- C42 for graphs in which objects with the same first type name have the same type names (part of
`GraphOk`): at every position the object comes back with its own type names, with `Deserialized.` in front
of each if no class is registered for them, and with the names of the class registered for them
otherwise. -/
theorem C42_partial (E : TextEnv) (hE : ExtendsAscii E.uni) (L : Lib) (std : L.Standard) (H : Heap)
    (vs : List (PVal × Option ClixmlStream)) (ok : GraphOk E L H (vs.map Prod.fst)) (n m : Nat) (hnm : n < m)
    (xs : List Xml) (s : SState) (hser : serDoc E H n vs {} = .ok (xs, s)) :
    ∃ dvs ds, readDoc E L m xs {} = .ok (dvs, ds) ∧ ∀ i p a, docAt (H.completed L) vs i p = some (.ref a) →
      (H a).types ≠ [] → (∀ q, (H a).data ≠ .ext q) →
      ∃ b d, readAt ds.heap dvs i p = some (.ref b) ∧ ds.heap[b]? = some d ∧
        match L.reg.rehydrate (H a).types with
        | .plain _ => (ds.shown L d).types = (H a).types.map ((txt! "Deserialized.") ++ ·)
        | .instance_ c => (ds.shown L d).types = L.names c := by
  obtain ⟨dvs, ds, h1, h2⟩ := C41_at_partial E hE L std H vs ok n m hnm xs s hser
  refine ⟨dvs, ds, h1, fun i p a ha ht hx => ?_⟩
  have := h2 i p
  rw [ha] at this
  obtain ⟨b, d, h3, h4, _, h5, _⟩ := this
  refine ⟨b, d, h3, h4, ?_⟩
  rw [h5]
  unfold resultTypes
  cases hd : (H a).data <;> cases hts : (H a).types <;> cases hr : L.reg.rehydrate (H a).types <;>
    first
      | exact absurd hd (hx _)
      | exact absurd hts ht
      | (rw [hts] at hr; simp only [hr])

/-- Two objects with the same first type name, in a list. -/
def twinHeap : Heap
  | 0 => { data := .list .list [.ref 1, .ref 2] }
  | 1 => { key := some 1, types := [txt! "A", txt! "B"] }
  | _ => { key := some 2, types := [txt! "A", txt! "C"] }

set_option maxRecDepth 20000 in
/-- C42 does not hold for lists that start with the same name: the second object comes back with the list
of the first. -/
theorem C42_violated (E : TextEnv) (n m : Nat) : ∃ x s ds d,
    ser E twinHeap (n + 2) (.ref 0) {} = .ok (x, s) ∧ deser E library (m + 2) x {} = .ok (.ref 1, ds) ∧
    DVal.at ds.heap (.ref 1) [.item 1] = some (.ref 3) ∧ ds.heap[3]? = some d ∧
    d.types = [txt! "Deserialized.A", txt! "Deserialized.B"] := by
  rw [library_loaded]
  exact ⟨_, _, _, _, rfl, rfl, rfl, rfl, rfl⟩

/-! ## C43 -/

/-- C43 for graphs in which objects that are found under the same key are the same (part of `GraphOk`):
if two positions of what was read have the same object, then so had the two positions of what was
written. -/
theorem C43_partial (E : TextEnv) (hE : ExtendsAscii E.uni) (L : Lib) (std : L.Standard) (H : Heap)
    (vs : List (PVal × Option ClixmlStream)) (ok : GraphOk E L H (vs.map Prod.fst)) (n m : Nat) (hnm : n < m)
    (xs : List Xml) (s : SState) (hser : serDoc E H n vs {} = .ok (xs, s)) :
    ∃ dvs ds, readDoc E L m xs {} = .ok (dvs, ds) ∧ ∀ i j p q b,
      readAt ds.heap dvs i p = some (.ref b) → readAt ds.heap dvs j q = some (.ref b) →
      ∃ a, docAt (H.completed L) vs i p = some (.ref a) ∧ docAt (H.completed L) vs j q = some (.ref a) := by
  obtain ⟨dvs, ds, φ, h1, hp, _, _⟩ := doc_positions hE std ok hnm hser
  have key : ∀ i p b, readAt ds.heap dvs i p = some (.ref b) → ∃ a, docAt (H.completed L) vs i p = some (.ref a) ∧ φ b = some a := by
    intro i p b h
    rcases hp i p with ⟨_, h3⟩ | ⟨v, d, h2, h3, h4⟩
    · rw [h3] at h; cases h
    · rw [h3] at h; cases h
      cases v with
      | ref a => obtain ⟨b', e, e'⟩ := h4; cases e; exact ⟨a, h2, e'⟩
      | _ => cases h4
  refine ⟨dvs, ds, h1, fun i j p q b hi hj => ?_⟩
  obtain ⟨a, ha, e⟩ := key i p b hi
  obtain ⟨a', ha', e'⟩ := key j q b hj
  rw [e] at e'; cases e'
  exact ⟨a, ha, ha'⟩

/-- C43, the other direction: an object that can be referred to and is in two positions comes back as one
object in both. -/
theorem C43_shared_partial (E : TextEnv) (hE : ExtendsAscii E.uni) (L : Lib) (std : L.Standard) (H : Heap)
    (vs : List (PVal × Option ClixmlStream)) (ok : GraphOk E L H (vs.map Prod.fst)) (n m : Nat) (hnm : n < m)
    (xs : List Xml) (s : SState) (hser : serDoc E H n vs {} = .ok (xs, s)) :
    ∃ dvs ds, readDoc E L m xs {} = .ok (dvs, ds) ∧ ∀ i j p q a, (H a).key ≠ none →
      docAt (H.completed L) vs i p = some (.ref a) → docAt (H.completed L) vs j q = some (.ref a) →
      ∃ b, readAt ds.heap dvs i p = some (.ref b) ∧ readAt ds.heap dvs j q = some (.ref b) := by
  obtain ⟨dvs, ds, φ, h1, hp, inv, _⟩ := doc_positions hE std ok hnm hser
  have key : ∀ i p a, docAt (H.completed L) vs i p = some (.ref a) → ∃ b, readAt ds.heap dvs i p = some (.ref b) ∧ φ b = some a := by
    intro i p a h
    rcases hp i p with ⟨h2, _⟩ | ⟨v, d, h2, h3, h4⟩
    · rw [h2] at h; cases h
    · rw [h2] at h; cases h
      obtain ⟨b, e, e'⟩ := h4
      subst e
      exact ⟨b, h3, e'⟩
  refine ⟨dvs, ds, h1, fun i j p q a hk hi hj => ?_⟩
  obtain ⟨b, hb, e⟩ := key i p a hi
  obtain ⟨b', hb', e'⟩ := key j q a hj
  obtain ⟨k, hk⟩ := Option.ne_none_iff_exists'.mp hk
  obtain ⟨r, h2, h3⟩ := inv.keyed b a k e hk
  obtain ⟨r', h2', h3'⟩ := inv.keyed b' a k e' hk
  rw [h2] at h2'; cases h2'
  rw [h3] at h3'; cases h3'
  exact ⟨b, hb, hb'⟩

/-- Two strings of the same text with different properties, in a list: as keys of a dict they are equal. -/
def equalHeap : Heap
  | 0 => { data := .list .list [.ref 1, .ref 2] }
  | 1 => { key := some 1, data := .ext (.str .string (txt! "x")), extended := [(txt! "Note", .bool true)] }
  | _ => { key := some 1, data := .ext (.str .string (txt! "x")), extended := [(txt! "Note", .bool false)] }

/-- C43 does not hold for different objects that are equal: the two come back as one object, with the
properties of the first. -/
theorem C43_violated (E : TextEnv) (n m : Nat) : ∃ x s ds,
    ser E equalHeap (n + 3) (.ref 0) {} = .ok (x, s) ∧ deser E library (m + 3) x {} = .ok (.ref 1, ds) ∧
    DVal.at ds.heap (.ref 1) [.item 0] = some (.ref 3) ∧ DVal.at ds.heap (.ref 1) [.item 1] = some (.ref 3) ∧
    PVal.at equalHeap (.ref 0) [.item 0] = some (.ref 1) ∧ PVal.at equalHeap (.ref 0) [.item 1] = some (.ref 2) ∧
    DVal.at ds.heap (.ref 1) [.item 1, .extended 0] = some (.bool true) ∧
    PVal.at equalHeap (.ref 0) [.item 1, .extended 0] = some (.bool false) :=
  ⟨_, _, _, rfl, rfl, rfl, rfl, rfl, rfl, rfl, rfl⟩

/-- Beside the theorems on positions: the document of the example, which has its first object in many
positions. -/
example (m : Nat) (hm : 8 < m) : ∃ xs s dvs ds b,
    serDoc plainEnv exampleHeap 8 [(.ref 0, none), (.ref 0, some .error)] {} = .ok (xs, s) ∧
    readDoc plainEnv library m xs {} = .ok (dvs, ds) ∧
    readAt ds.heap dvs 0 [.extended 0, .item 4, .value 0] = some (.ref b) ∧
    readAt ds.heap dvs 1 [] = some (.ref b) := by
  have ok : GraphOk plainEnv library exampleHeap [.ref 0, .ref 0] :=
    graphCheck_ok plainEnv (addrs := [0, 1, 2, 3, 4]) (by decide +kernel)
  obtain ⟨xs, s, hx⟩ : ∃ xs s, serDoc plainEnv exampleHeap 8 [(.ref 0, none), (.ref 0, some .error)] {} = .ok (xs, s) :=
    ⟨_, _, rfl⟩
  obtain ⟨dvs, ds, h1, h2⟩ := C43_shared_partial plainEnv (fun _ _ => rfl) library library_standard exampleHeap
    [(.ref 0, none), (.ref 0, some .error)] ok 8 m hm xs s hx
  obtain ⟨b, hb⟩ := h2 0 1 [.extended 0, .item 4, .value 0] [] 0 (by simp [exampleHeap])
    (by decide +kernel) (by decide +kernel)
  exact ⟨xs, s, dvs, ds, b, hx, h1, hb⟩

/-! ## C61 -/

/-- C61 for graphs without queues: serializing changes no object. -/
theorem C61_partial (E : TextEnv) (H : Heap) (v : PVal) (noQueue : ∀ a l, Reach H [v] a → (H a).data ≠ .queue l)
    (n : Nat) (x : Xml) (s : SState) (h : ser E H n v {} = .ok (x, s)) : H.after s = H := by
  funext a
  unfold Heap.after
  split
  · rename_i ha
    rcases ser_drains E H n v {} x s h a ha with h | ⟨r, l, hl⟩
    · cases h
    · exact absurd hl (noQueue a l r)
  · rfl

/-- C61 for graphs without queues: serializing again gives the same element. -/
theorem C61_again_partial (E : TextEnv) (H : Heap) (v : PVal)
    (noQueue : ∀ a l, Reach H [v] a → (H a).data ≠ .queue l) (n : Nat) (x : Xml) (s : SState)
    (h : ser E H n v {} = .ok (x, s)) : ser E (H.after s) n v {} = .ok (x, s) := by
  rw [C61_partial E H v noQueue n x s h, h]

example : ∃ x s, ser plainEnv exampleHeap 8 (.ref 0) {} = .ok (x, s) ∧ exampleHeap.after s = exampleHeap := by
  refine ⟨_, _, rfl, C61_partial plainEnv exampleHeap (.ref 0) (fun a l _ => ?_) 8 _ _ rfl⟩
  match a with
  | 0 | 1 | 2 | 3 | _ + 4 => simp [exampleHeap]

/-- A queue with one entry. -/
def queueHeap : Heap := fun _ => { key := some 0, data := .queue [.bool true] }

/-- C61 does not hold for queues: serializing takes out the entries, and serializing a second time gives an
element without entries, which is read as an empty queue. -/
theorem C61_violated (E : TextEnv) (n m : Nat) : ∃ x s x' s' ds,
    ser E queueHeap (n + 2) (.ref 0) {} = .ok (x, s) ∧ (queueHeap.after s 0).data = .queue [] ∧
    ser E (queueHeap.after s) (n + 2) (.ref 0) {} = .ok (x', s') ∧
    deser E library (m + 2) x' {} = .ok (.ref 1, ds) ∧ ds.heap[1]?.map DObj.data = some (.queue []) :=
  ⟨_, _, _, _, _, rfl, rfl, rfl, rfl, rfl⟩

/-! ## C62 -/

/-- C62, exactly: a progress record comes back as it was if and only if its texts are not empty and survive
escaping and its numbers are 32 bit integers. -/
theorem C62_exact (r : Progress) (ha : IsText r.activity) (hs : IsText r.status)
    (ho : ∀ t, r.operation = some t → IsText t) : readProgress (progressKids r) = .ok r ↔ r.Faithful := by
  constructor
  · intro h
    obtain ⟨h1, h2, h3, h4, h5, h6, h7⟩ := progress_parts h
    refine ⟨⟨⟨ha, ?_⟩, h1.1⟩, ⟨⟨hs, ?_⟩, h2.1⟩, fun t e => ⟨⟨ho t e, ?_⟩, (h3 t e).1⟩, ?_⟩
    · exact (C23_exact _ ha).mp h1.2
    · exact (C23_exact _ hs).mp h2.2
    · exact (C23_exact _ (ho t e)).mp (h3 t e).2
    · intro v hv
      simp only [List.mem_cons, List.not_mem_nil, or_false] at hv
      rcases hv with rfl | rfl | rfl | rfl
      · exact h4
      · exact h5
      · exact h6
      · exact h7
  · intro h
    exact readProgress_kids h.activity.1 h.activity.2 h.status.1 h.status.2 h.operation h.ints

/-- Beside `C62_exact`: a record that comes back. -/
example : readProgress (progressKids { activityId := some 1, activity := txt! "a", status := txt! "s" }) =
    .ok { activityId := some 1, activity := txt! "a", status := txt! "s" } := by
  refine (C62_exact _ ?_ ?_ ?_).mpr ⟨⟨textOk_low ?_, ?_⟩, ⟨textOk_low ?_, ?_⟩, ?_, ?_⟩
  · intro c hc; simp at hc; omega
  · intro c hc; simp at hc; omega
  · intro t h; cases h
  · intro c hc; simp at hc; omega
  · simp
  · intro c hc; simp at hc; omega
  · simp
  · intro t h; cases h
  · intro v hv
    simp only [List.mem_cons, List.not_mem_nil, or_false] at hv
    rcases hv with rfl | rfl | rfl | rfl
    · exact ⟨1, rfl, (IntKind.inRange_iff _ _).mpr (by decide)⟩
    all_goals exact ⟨-1, rfl, (IntKind.inRange_iff _ _).mpr (by decide)⟩

/-- C62 does not hold for records with an empty activity or description: they are written and cannot be
read. -/
theorem C62_violated (r : Progress) (h : r.activity = [] ∨ r.status = []) : readProgress (progressKids r) ≠ .ok r := by
  intro e
  obtain ⟨h1, h2, _⟩ := progress_parts e
  rcases h with h | h
  · exact h1.1 h
  · exact h2.1 h

/-- The error in that case. -/
theorem C62_violated_status (id : Int) (hid : IntKind.psInt.InRange id) (activity : PyStr) (ht : TextOk activity)
    (hne : activity ≠ []) :
    readProgress (progressKids { activityId := some id, activity := activity, status := [] }) = .error .typeError := by
  have h1 := find_kids { activityId := some id, activity := activity, status := [] }
  have hs : serializeString activity ≠ [] := serialize_ne_nil ht hne
  have t1 : readProgressText (progressKids { activityId := some id, activity := activity, status := [] }) .AV =
      .ok (some activity) := by
    unfold readProgressText
    rw [h1 .AV]; dsimp only
    rw [if_neg hs]; dsimp only
    rw [(C23_exact _ ht.1).mpr ht.2]; rfl
  have t2 : readProgressInt (progressKids { activityId := some id, activity := activity, status := [] }) .AI =
      .ok (some id) := by
    unfold readProgressInt
    rw [h1 .AI]; dsimp only
    rw [if_neg (optIntStr_ne _)]; dsimp only [optIntStr]
    rw [intOfText_intStr]; dsimp only
    rw [(IntKind.new_number .psInt id id).mpr ⟨rfl, hid⟩]; rfl
  unfold readProgress
  rw [t1]; dsimp only
  rw [t2]; dsimp only
  rfl

/-- The current operation `""` comes back as `None`. -/
theorem C62_violated_operation (E : TextEnv) (m : Nat) (s : DState) : deser E library (m + 1) (primXml E (.progress
      { activityId := some 1, activity := txt! "a", status := txt! "s", operation := some [] })) s =
    .ok (.prim (.progress { activityId := some 1, activity := txt! "a", status := txt! "s", operation := none }), s) :=
  rfl

/-- A number that is `None` is written as `None` and cannot be read. -/
theorem C62_violated_none (E : TextEnv) (m : Nat) (s : DState) : deser E library (m + 1) (primXml E (.progress
      { activityId := some 1, activity := txt! "a", status := txt! "s", percent := none })) s = .error .valueError :=
  rfl

end Verif
