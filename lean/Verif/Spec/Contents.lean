import Verif.Model.Contents
import Verif.Spec.Events
import Verif.Spec.Command
import Verif.Spec.Host

/-! # What is in a message and what the receiver reads in it (C75, C76) -/

namespace Verif

/-! ## Values as trees -/

/-- What a value is at its top. An `enum` is a member of an enum class or a number with properties, an `obj` an object with note
properties only. -/
inductive Node (V : Type)
  | nil
  | bool (b : Bool)
  | int (n : Int)
  | char (c : Int)
  | str (s : PyStr)
  | enum (n : Int)
  | list (l : List V)
  | dict (d : List (V × V))
  | obj (props : List (PyStr × V))
  | other

/-- A primitive. -/
def Prim.node {V : Type} (p : Prim) : Node V :=
  match p.norm with
  | .int _ n => .int n
  | .char c => .char c
  | .str .string s => .str s
  | _ => .other

/-- A primitive with properties and the value of an enum member. -/
def Prim.member {V : Type} (p : Prim) : Node V :=
  match p.norm with
  | .int _ n => .enum n
  | _ => .other

/-- A value of the sender. -/
def Heap.look (H : Heap) : PVal → Node PVal
  | .nil => .nil
  | .bool b => .bool b
  | .prim p => p.node
  | .ref a =>
    match (H a).data with
    | .none => if (H a).adapted = [] then .obj (H a).extended else .other
    | .ext p => p.member
    | .enum p => p.member
    | .list _ l => .list l
    | .queue _ => .other
    | .dict d => .dict d

/-- A value of the receiver, as Python shows it. -/
def DState.look (s : DState) (L : Lib) : DVal → Node DVal
  | .nil => .nil
  | .bool b => .bool b
  | .prim p => p.node
  | .ref b =>
    match s.heap[b]? with
    | none => .other
    | some o =>
      match (s.shown L o).data with
      | .none => if (s.shown L o).adapted = [] then .obj (s.shown L o).extended else .other
      | .prim p => p.member
      | .list l => .list l
      | .queue _ => .other
      | .dict d => .dict d

/-- The value `v` is the tree: what it is at its top, and so on for what is in it. `leaf` tells which values the leaves `other` are. -/
inductive IsTree {V : Type} (look : V → Node V) (leaf : Nat → V → Prop) : HVal → V → Prop
  | nil {v : V} (h : look v = .nil) : IsTree look leaf .nil v
  | bool {v : V} {b : Bool} (h : look v = .bool b) : IsTree look leaf (.bool b) v
  | int {v : V} {n : Int} (h : look v = .int n) : IsTree look leaf (.int n) v
  | char {v : V} {c : Int} (h : look v = .char c) : IsTree look leaf (.char c) v
  | str {v : V} {s : PyStr} (h : look v = .str s) : IsTree look leaf (.str s) v
  | enum {v : V} {n : Int} (h : look v = .enum n) : IsTree look leaf (.enum n) v
  | list {v : V} {ts : List HVal} {vs : List V} (h : look v = .list vs) (hs : All2 (IsTree look leaf) ts vs) :
      IsTree look leaf (.list ts) v
  | dict {v : V} {ts : List (Int × HVal)} {vs : List (V × V)} (h : look v = .dict vs)
      (hk : All2 (fun n k => look k = .int n) (ts.map Prod.fst) (vs.map Prod.fst))
      (hs : All2 (IsTree look leaf) (ts.map Prod.snd) (vs.map Prod.snd)) : IsTree look leaf (.dict ts) v
  | obj {v : V} {ts : List (PyStr × HVal)} {vs : List (PyStr × V)} (h : look v = .obj vs)
      (hn : ts.map Prod.fst = vs.map Prod.fst)
      (hs : All2 (IsTree look leaf) (ts.map Prod.snd) (vs.map Prod.snd)) : IsTree look leaf (.obj ts) v
  | other {v : V} {i : Nat} (h : leaf i v) : IsTree look leaf (.other i) v

/-- The trees are the same but for leaves: where one has a leaf the other may have anything. -/
inductive Agree : HVal → HVal → Prop
  | left (i : Nat) (t : HVal) : Agree (.other i) t
  | right (i : Nat) (t : HVal) : Agree t (.other i)
  | nil : Agree .nil .nil
  | bool (b : Bool) : Agree (.bool b) (.bool b)
  | int (n : Int) : Agree (.int n) (.int n)
  | char (c : Int) : Agree (.char c) (.char c)
  | str (s : PyStr) : Agree (.str s) (.str s)
  | enum (n : Int) : Agree (.enum n) (.enum n)
  | list {ts us : List HVal} (h : All2 Agree ts us) : Agree (.list ts) (.list us)
  | dict {ts us : List (Int × HVal)} (hk : ts.map Prod.fst = us.map Prod.fst) (h : All2 Agree (ts.map Prod.snd) (us.map Prod.snd)) :
      Agree (.dict ts) (.dict us)
  | obj {ts us : List (PyStr × HVal)} (hk : ts.map Prod.fst = us.map Prod.fst) (h : All2 Agree (ts.map Prod.snd) (us.map Prod.snd)) :
      Agree (.obj ts) (.obj us)

/-! ## Contents -/

/-- What a user gives to the library to be sent: a call of the server's host, a reply to it, a pipeline, and the opening of a runspace
pool. Other objects in it are leaves. -/
inductive Content
  | hostCall (ci : Int) (call : HostCall)
  | hostReply (ci : Int) (reply : HostReply)
  | pipeline (p : PowerShell HVal HostInfo) (peer : Option PSVersion)
  | opening (min max : Int) (host : HostInfo)

/-- The arguments have the types the API documents (`Spec/Host.lean`); a pipeline has commands. -/
def Content.Valid (strict : Bool) : Content → Prop
  | hostCall _ c => c.Valid strict
  | hostReply _ r => r.Valid strict
  | pipeline p _ => p.commands ≠ [] ∧ ∀ d ∈ p.host.defaultData, d.Valid
  | opening _ _ h => ∀ d ∈ h.defaultData, d.Valid

/-- The message that is made of it: its class, and as its fields objects that are what `ToPSObjectForRemoting` makes. `val` are the
objects of the leaves. -/
def Content.SentAs (strict : Bool) (look : PVal → Node PVal) (val : Nat → PVal) : Content → Letter → Prop
  | hostCall ci c, l => ∃ m ts mi mp, c.encode strict = .ok (m, ts) ∧ (l = .pipelineHostCall ci mi mp ∨ l = .runspacePoolHostCall ci mi mp) ∧
      IsTree look (fun i v => v = val i) (.enum m.value) mi ∧ IsTree look (fun i v => v = val i) (.list ts) mp
  | hostReply ci r, l => ∃ t mi mr, r.encode strict = .ok t ∧
      (l = .pipelineHostResponse ci mi mr .nil ∨ l = .runspacePoolHostResponse ci mi mr .nil) ∧
      IsTree look (fun i v => v = val i) (.enum r.meaning.1.value) mi ∧ IsTree look (fun i v => v = val i) t mr
  | pipeline p peer, l => ∃ m t apartment options host command, p.toRemoting peer = .ok m ∧ p.host.toHost = .ok t ∧
      l = .createPipeline m.noInput apartment options m.addToHistory host command m.isNested ∧
      IsTree look (fun i v => v = val i) (.ofEnum (m.apartmentState.map Int.ofNat)) apartment ∧
      IsTree look (fun i v => v = val i) (.enum m.remoteStreamOptions) options ∧
      IsTree look (fun i v => v = val i) t host ∧ IsTree look (fun i v => v = val i) m.commandTree command
  | opening min max h, l => ∃ t threads apartment host args, h.toHost = .ok t ∧ l = .initRunspacePool min max threads apartment host args ∧
      IsTree look (fun i v => v = val i) t host

/-- The message is made of objects of the heap. They are taken with the properties that the class of what comes back declares
(`Heap.completed`), which are none for objects without a type. -/
def Content.Sent (strict : Bool) (L : Lib) (H : Heap) (val : Nat → PVal) (c : Content) (l : Letter) : Prop :=
  c.SentAs strict (H.completed L).look val l

/-- The parameters `method_parameters` decodes, a new list if there are none. -/
def ParamTrees (look : DVal → Node DVal) (leaf : Nat → DVal → Prop) (ts : List HVal) : Option DVal → Prop
  | none => ts = []
  | some d => IsTree look leaf (.list ts) d

/-- What the event shows the receiver: call id, method and decoded parameters of a host call, call id, method and decoded result of a
reply without an error, a pipeline with the settings and statements that the version of the receiver knows, the limits and the host
information of a runspace pool. -/
def Content.Seen (strict : Bool) (look : DVal → Node DVal) (leaf : Nat → DVal → Prop) : Content → EventView → Prop
  | hostCall ci c, e => ∃ mi mp ts, (e = .pipelineHostCall (.prim (.int .psInt64 ci)) mi mp ∨
        e = .runspacePoolHostCall (.prim (.int .psInt64 ci)) mi mp) ∧
      look mi = .enum c.meaning.1.value ∧ ParamTrees look leaf ts mp ∧ decodeParams strict c.meaning.1 ts = .ok c.meaning.2
  | hostReply ci r, e => ∃ mi mr t, (e = .pipelineHostResponse (.prim (.int .psInt64 ci)) mi mr .nil ∨
        e = .runspacePoolHostResponse (.prim (.int .psInt64 ci)) mi mr .nil) ∧
      look mi = .enum r.meaning.1.value ∧ IsTree look leaf t mr ∧ decodeResult strict r.meaning.1 t = .ok r.meaning.2
  | pipeline p peer, e => ∃ i a o h s c n ti ta to th ts tc tn q, e = .createPipeline i a o h s c n ∧
      IsTree look leaf ti i ∧ IsTree look leaf ta a ∧ IsTree look leaf to o ∧ IsTree look leaf th h ∧ IsTree look leaf ts s ∧
      IsTree look leaf tc c ∧ IsTree look leaf tn n ∧ PowerShell.read ti ta to th ts tc tn = .ok q ∧
      q = { p with commands := q.commands } ∧
      (statements q.commands).map (·.map Command.unmarked) =
        (statements p.commands).map (·.map (Command.knownTo (peer.getD Win7RC)))
  | opening min max h, e => ∃ t a host g th, e = .initRunspacePool (.prim (.int .psInt min)) (.prim (.int .psInt max)) t a host g ∧
      IsTree look leaf th host ∧ HostInfo.fromHost th = .ok h

/-- The message with this content arrived, and its event shows the content. The leaves are objects that stand for the sender's. -/
def ContentArrives (strict : Bool) (L : Lib) (val : Nat → PVal) (c : Content) (p : Post) (i : Mail (Except Err Incoming)) : Prop :=
  i.type = p.letter.type ∧ i.pid = p.pid ∧ ∃ d ds e φ, i.object = .ok (.object d ds) ∧ readEvent L i.type (.object d ds) = .ok e ∧
    c.Seen strict (ds.look L) (fun j d => VMatch φ (val j) d) e ∧
    ∀ b a, φ b = some a → a ≠ p.addr → ∃ o, ds.heap[b]? = some o ∧ OMatch L φ (p.heap a) (ds.shown L o)

end Verif
