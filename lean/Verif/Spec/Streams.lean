import Verif.Model.Streams
import Verif.Spec.Events

/-! # What the client is shown of information and progress records -/

namespace Verif

/-- The value is the one given, or the default if none was given. -/
def Picks {α : Type} (given : Option α) (default x : α) : Prop := given = some x ∨ given = none ∧ x = default

/-- The user is the one given, or else the one the machine tells, or `Unknown` if it has no module to ask. -/
def PicksUser (M : Machine) (given : Option PyStr) (x : PyStr) : Prop :=
  given = some x ∨ given = none ∧ (M.user = .name x ∨ M.user = .noModule ∧ x = txt! "Unknown")

/-- The tags given are a list with entries. -/
def SomeTags (H : Heap) (tags : Option Nat) (q : Nat) : Prop := tags = some q ∧ ¬ ∃ k, (H q).data = .list k []

/-- A text, an `Int32` and an `UInt32` as events show them. -/
def shownText (t : PyStr) : DVal := .prim (.str .string t)
@[inherit_doc shownText] def shownInt (n : Int) : DVal := .prim (.int .psInt n)
@[inherit_doc shownText] def shownUInt (n : Int) : DVal := .prim (.int .psUInt n)

/-- The event is one for the pipeline and shows the information record that the arguments describe: what was given and, for what was not,
what the machine tells. The data and the tags stand for the objects of the caller; without tags there is an empty list. -/
def ShowsInformation (L : Lib) (M : Machine) (H : Heap) (new : List Nat) (pid : Option UUID) (a : InformationArgs)
    (i : Mail (Except Err Incoming)) : Prop :=
  i.type = .InformationRecord ∧ i.pid = pid ∧ ∃ v s data time tags user computer process native managed,
    i.object = .ok (.object v s) ∧
    readEvent L .InformationRecord (.object v s) = .ok (.informationRecord data (shownText a.source) (.prim (.date time)) tags
      (shownText user) (shownText computer) (shownUInt process) (shownUInt native) (shownUInt managed)) ∧
    Picks a.time M.now time ∧ PicksUser M a.user user ∧ Picks a.computer M.node computer ∧ Picks a.process M.processId process ∧
    Picks a.native M.threadId native ∧ Picks a.managed 0 managed ∧
    ∃ φ, VMatch φ a.data data ∧ (∀ q, SomeTags H a.tags q → VMatch φ (.ref q) tags) ∧
      ((∀ q, ¬ SomeTags H a.tags q) → ∃ b o, tags = .ref b ∧ s.heap[b]? = some o ∧ (s.shown L o).data = .list []) ∧
      ∀ b q, φ b = some q → q ∉ new → ∃ o, s.heap[b]? = some o ∧ OMatch L φ (H q) (s.shown L o)

/-- The same for a progress record. -/
def ShowsProgress (L : Lib) (H : Heap) (new : List Nat) (pid : Option UUID) (processing : PVal) (a : ProgressArgs)
    (i : Mail (Except Err Incoming)) : Prop :=
  i.type = .ProgressRecord ∧ i.pid = pid ∧ ∃ v s type, i.object = .ok (.object v s) ∧
    readEvent L .ProgressRecord (.object v s) = .ok (.progressRecord (shownText a.activity) (shownInt a.activityId) (shownText a.status)
      ((a.operation.map shownText).getD .nil) (shownInt a.parentId) (shownInt a.percent) type (shownInt a.seconds)) ∧
    ∃ φ t, Picks a.type processing t ∧ VMatch φ t type ∧
      ∀ b q, φ b = some q → q ∉ new → ∃ o, s.heap[b]? = some o ∧ OMatch L φ (H q) (s.shown L o)

/-- A number an `Int32` can hold. -/
def Fits32 (n : Int) : Prop := -2147483648 ≤ n ∧ n ≤ 2147483647

/-- A number an `UInt32` can hold. -/
def FitsU32 (n : Int) : Prop := 0 ≤ n ∧ n ≤ 4294967295

end Verif
