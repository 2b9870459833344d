import Verif.Spec.Contents
import Verif.Spec.Messages

/-! # The layout of host calls, replies, host information and pipelines (specification for C85)

The tables of [MS-PSRP] 2.2.3, and the text that a tree of values has in a message. Nothing here refers to the functions that write
messages. -/

namespace Verif

/-! ## Host calls -/

/-- The numbers of the methods of a host, [MS-PSRP] 2.2.3.17. -/
def methodNumbers : List (HostMethod × Nat) :=
  [(.GetName, 1), (.GetVersion, 2), (.GetInstanceId, 3), (.GetCurrentCulture, 4), (.GetCurrentUICulture, 5), (.SetShouldExit, 6),
    (.EnterNestedPrompt, 7), (.ExitNestedPrompt, 8), (.NotifyBeginApplication, 9), (.NotifyEndApplication, 10), (.ReadLine, 11),
    (.ReadLineAsSecureString, 12), (.Write1, 13), (.Write2, 14), (.WriteLine1, 15), (.WriteLine2, 16), (.WriteLine3, 17),
    (.WriteErrorLine, 18), (.WriteDebugLine, 19), (.WriteProgress, 20), (.WriteVerboseLine, 21), (.WriteWarningLine, 22),
    (.Prompt, 23), (.PromptForCredential1, 24), (.PromptForCredential2, 25), (.PromptForChoice, 26), (.GetForegroundColor, 27),
    (.SetForegroundColor, 28), (.GetBackgroundColor, 29), (.SetBackgroundColor, 30), (.GetCursorPosition, 31),
    (.SetCursorPosition, 32), (.GetWindowPosition, 33), (.SetWindowPosition, 34), (.GetCursorSize, 35), (.SetCursorSize, 36),
    (.GetBufferSize, 37), (.SetBufferSize, 38), (.GetWindowSize, 39), (.SetWindowSize, 40), (.GetWindowTitle, 41),
    (.SetWindowTitle, 42), (.GetMaxWindowSize, 43), (.GetMaxPhysicalWindowSize, 44), (.GetKeyAvailable, 45), (.ReadKey, 46),
    (.FlushInputBuffer, 47), (.SetBufferContents1, 48), (.SetBufferContents2, 49), (.GetBufferContents, 50),
    (.ScrollBufferContents, 51), (.PushRunspace, 52), (.PopRunspace, 53), (.GetIsRunspacePushed, 54), (.GetRunspace, 55),
    (.PromptForChoiceMultipleSelection, 56)]

/-- Something, or a null value. -/
def HVal.orNull {α : Type} (f : α → HVal) : Option α → HVal
  | none => .nil
  | some v => f v

/-- A position, [MS-PSRP] 2.2.3.1. -/
def Coordinates.Layout (c : Coordinates) (v : HVal) : Prop :=
  v = .obj [(txt! "x", .orNull .int c.x), (txt! "y", .orNull .int c.y)]

/-- A size, [MS-PSRP] 2.2.3.2. -/
def HostSize.Layout (c : HostSize) (v : HVal) : Prop :=
  v = .obj [(txt! "width", .orNull .int c.width), (txt! "height", .orNull .int c.height)]

/-- A rectangle. -/
def Rectangle.Layout (c : Rectangle) (v : HVal) : Prop :=
  v = .obj [(txt! "left", .orNull .int c.left), (txt! "top", .orNull .int c.top), (txt! "right", .orNull .int c.right),
    (txt! "bottom", .orNull .int c.bottom)]

/-- A key, [MS-PSRP] 2.2.3.26. -/
def KeyInfo.Layout (k : KeyInfo) (v : HVal) : Prop :=
  ∃ st, k.controlKeyState = some st ∧ v = .obj [(txt! "virtualKeyCode", .orNull .int k.virtualKeyCode),
    (txt! "character", .orNull .char k.character), (txt! "controlKeyState", .int st), (txt! "keyDown", .orNull .bool k.keyDown)]

/-- A cell of the screen, [MS-PSRP] 2.2.3.28. -/
def BufferCell.Layout (c : BufferCell) (v : HVal) : Prop :=
  ∃ fg bg ty, c.foreground = some fg ∧ c.background = some bg ∧ c.cellType = some ty ∧
    v = .obj [(txt! "character", .orNull .char c.character), (txt! "foregroundColor", .int fg), (txt! "backgroundColor", .int bg),
      (txt! "bufferCellType", .int ty)]

/-- The label and help of a choice. -/
def ChoiceDescription.Layout (c : ChoiceDescription) (v : HVal) : Prop :=
  v = .obj [(txt! "label", .orNull .str c.label), (txt! "helpMessage", .orNull .str c.helpMessage)]

/-- A field of a prompt. -/
def FieldDescription.Layout (f : FieldDescription) (v : HVal) : Prop :=
  v = .obj [(txt! "name", .orNull .str f.name), (txt! "label", .orNull .str f.label),
    (txt! "parameterTypeName", .orNull .str f.parameterTypeName), (txt! "parameterTypeFullName", .orNull .str f.parameterTypeFullName),
    (txt! "parameterAssemblyFullName", .orNull .str f.parameterAssemblyFullName), (txt! "helpMessage", .orNull .str f.helpMessage),
    (txt! "isMandatory", .orNull .bool f.isMandatory), (txt! "metadata", .list []), (txt! "modifiedByRemotingProtocol", .bool false),
    (txt! "isFromRemoteHost", .bool false)]

/-- A progress record, [MS-PSRP] 2.2.2.25. -/
def HostProgress.Layout (p : HostProgress) (v : HVal) : Prop :=
  v = .obj [(txt! "Activity", .orNull .str p.activity), (txt! "ActivityId", .orNull .int p.activityId),
    (txt! "StatusDescription", .orNull .str p.statusDescription), (txt! "CurrentOperation", .orNull .str p.currentOperation),
    (txt! "ParentActivityId", .orNull .int p.parentActivityId), (txt! "PercentComplete", .orNull .int p.percentComplete),
    (txt! "Type", .orNull .enum p.recordType), (txt! "SecondsRemaining", .orNull .int p.secondsRemaining)]

/-- A parameter or a result. A two-dimensional array ([MS-PSRP] 2.2.6.1.4) has its elements row by row in `mae`, and the numbers of
rows and columns in `mal`. -/
inductive HParam.Layout : HParam → HVal → Prop
  | raw (v : HVal) : Layout (.raw v) v
  | color (c : Int) : Layout (.color c) (.int c)
  | coordinates {c : Coordinates} {v : HVal} (h : c.Layout v) : Layout (.coordinates c) v
  | size {s : HostSize} {v : HVal} (h : s.Layout v) : Layout (.size s) v
  | rectangle {r : Rectangle} {v : HVal} (h : r.Layout v) : Layout (.rectangle r) v
  | cell {c : BufferCell} {v : HVal} (h : c.Layout v) : Layout (.cell c) v
  | cells {rows : List (List BufferCell)} {columns : Nat} {vs : List HVal} (hc : ∀ row ∈ rows, row.length = columns)
      (h : All2 BufferCell.Layout rows.flatten vs) :
      Layout (.cells rows) (.obj [(txt! "mae", .list vs), (txt! "mal", .list [.int rows.length, .int columns])])
  | key {k : KeyInfo} {v : HVal} (h : k.Layout v) : Layout (.key k) v
  | fields {fs : List FieldDescription} {vs : List HVal} (h : All2 FieldDescription.Layout fs vs) : Layout (.fields fs) (.list vs)
  | choices {cs : List ChoiceDescription} {vs : List HVal} (h : All2 ChoiceDescription.Layout cs vs) : Layout (.choices cs) (.list vs)
  | progress {p : HostProgress} {v : HVal} (h : p.Layout v) : Layout (.progress p) v
  | credentialTypes (f : Nat) : Layout (.credentialTypes f) (.int f)
  | credentialOptions (f : Nat) : Layout (.credentialOptions f) (.int f)
  | readKeyOptions (f : Nat) : Layout (.readKeyOptions f) (.int f)

/-! ## Host information -/

/-- A value and the name of its type. -/
def typedValue (type : PyStr) (v : HVal) : HVal := .obj [(txt! "T", .str type), (txt! "V", v)]

/-- The default data of a host, [MS-PSRP] 2.2.3.14: ten entries by number. -/
def HostDefaultData.Layout (d : HostDefaultData) (v : HVal) : Prop :=
  ∃ fg bg cursor window cs buffer size max physical title c w b s m p,
    d = ⟨some fg, some bg, some cursor, some window, some cs, some buffer, some size, some max, some physical, some title⟩ ∧
    cursor.Layout c ∧ window.Layout w ∧ buffer.Layout b ∧ size.Layout s ∧ max.Layout m ∧ physical.Layout p ∧
    v = .obj [(txt! "data", .dict
      [(0, typedValue (txt! "System.ConsoleColor") (.int fg)), (1, typedValue (txt! "System.ConsoleColor") (.int bg)),
        (2, typedValue (txt! "System.Management.Automation.Host.Coordinates") c),
        (3, typedValue (txt! "System.Management.Automation.Host.Coordinates") w), (4, typedValue (txt! "System.Int32") (.int cs)),
        (5, typedValue (txt! "System.Management.Automation.Host.Size") b),
        (6, typedValue (txt! "System.Management.Automation.Host.Size") s),
        (7, typedValue (txt! "System.Management.Automation.Host.Size") m),
        (8, typedValue (txt! "System.Management.Automation.Host.Size") p), (9, typedValue (txt! "System.String") (.str title))])]

/-- Host information, [MS-PSRP] 2.2.3.14. -/
def HostInfo.Layout (h : HostInfo) (v : HVal) : Prop :=
  ∃ data, ((h.defaultData = none ∧ data = []) ∨ ∃ d t, h.defaultData = some d ∧ d.Layout t ∧ data = [(txt! "_hostDefaultData", t)]) ∧
    v = .obj ([(txt! "_isHostNull", .orNull .bool h.isHostNull), (txt! "_isHostUINull", .orNull .bool h.isHostUINull),
      (txt! "_isHostRawUINull", .orNull .bool h.isHostRawUINull), (txt! "_useRunspaceHost", .orNull .bool h.useRunspaceHost)] ++ data)

/-! ## Pipelines -/

/-- A command, [MS-PSRP] 2.2.3.12, for a peer of version `v`. -/
def Command.Layout (v : PSVersion) (c : Command HVal) (t : HVal) : Prop :=
  t = .obj ([(txt! "Cmd", .str c.commandText),
    (txt! "Args", .list (c.parameters.map fun a => .obj [(txt! "N", .orNull .str a.1), (txt! "V", a.2)])),
    (txt! "IsScript", .bool c.isScript), (txt! "UseLocalScope", .orNull .bool c.useLocalScope),
    (txt! "MergeMyResult", .enum c.mergeMy), (txt! "MergeToResult", .enum c.mergeTo),
    (txt! "MergePreviousResults", .enum (if c.mergeUnclaimed then 3 else 0))] ++
    (if v.AtLeast2 2 then [(txt! "MergeError", .enum c.mergeError), (txt! "MergeWarning", .enum c.mergeWarning),
      (txt! "MergeVerbose", .enum c.mergeVerbose), (txt! "MergeDebug", .enum c.mergeDebug)] else []) ++
    (if v.AtLeast2 3 then [(txt! "MergeInformation", .enum c.mergeInformation)] else []))

/-- The commands of a pipeline, [MS-PSRP] 2.2.3.11: those of the first statement in `Cmds`, and all statements in `ExtraCmds` if there
are more, or if the last one was ended, with an empty one behind it. -/
def PowerShell.Layout (v : PSVersion) (p : PowerShell HVal HostInfo) (t : HVal) : Prop :=
  ∃ (groups : List (List (Command HVal))) (trees : List (List HVal)),
    groups = statements p.commands ++ (if (p.commands.getLast?.map (·.endOfStatement)) = some true then [[]] else []) ∧
    All2 (All2 (Command.Layout v)) groups trees ∧
    t = .obj ([(txt! "Cmds", .list (trees.headD [])), (txt! "IsNested", .bool p.isNested), (txt! "History", .orNull .str p.history),
      (txt! "RedirectShellErrorOutputPipe", .bool p.redirectShellErrorToOut)] ++
      (if 1 < groups.length then [(txt! "ExtraCmds", .list (trees.map fun s => .obj [(txt! "Cmds", .list s)]))] else []))

/-! ## Texts -/

mutual
/-- The element of a tree, with the attributes `x` besides the reference id. Numbers are of any integer type. The type names of an
object and other properties and the string form of an enum member are not told here (see `Form`), nor is what a list or dict has
besides its entries. -/
inductive TreeText (H : Heap) (val : Nat → PVal) : HVal → PyStr → PyStr → Prop
  | nil {x : PyStr} : TreeText H val .nil x (element (txt! "Nil") x [])
  | true {x : PyStr} : TreeText H val (.bool true) x (element (txt! "B") x (txt! "true"))
  | false {x : PyStr} : TreeText H val (.bool false) x (element (txt! "B") x (txt! "false"))
  | int {n : Int} {k : IntKind} {x t : PyStr} (h : Signed n t) : TreeText H val (.int n) x (element k.element x t)
  | char {c : Int} {x t : PyStr} (h : Signed c t) : TreeText H val (.char c) x (element (txt! "C") x t)
  | str {s u x : PyStr} (h : Esc s u) : TreeText H val (.str s) x (element (txt! "S") x (xmlText u))
  /-- a number without properties -/
  | number {n : Int} {k : IntKind} {x t : PyStr} (h : Signed n t) : TreeText H val (.enum n) x (element k.element x t)
  | enum {n : Int} {k : IntKind} {i : Nat} {x r t rest : PyStr} (hr : Decimal i r) (h : Signed n t) :
      TreeText H val (.enum n) x (element (txt! "Obj") (attrib (txt! "RefId") r ++ x) (element k.element [] t ++ rest))
  | list {ts : List HVal} {k : ListKind} {i : Nat} {x r pre t : PyStr} (hr : Decimal i r) (h : TreeItems H val ts t) :
      TreeText H val (.list ts) x (element (txt! "Obj") (attrib (txt! "RefId") r ++ x) (pre ++ element k.element [] t))
  | dict {es : List (Int × HVal)} {i : Nat} {x r pre t : PyStr} (hr : Decimal i r) (h : TreeEntries H val es t) :
      TreeText H val (.dict es) x (element (txt! "Obj") (attrib (txt! "RefId") r ++ x) (pre ++ element (txt! "DCT") [] t))
  | obj {o : PObj} {ps : List (PyStr × HVal)} {i : Nat} {x r t1 t2 t3 : PyStr} (hr : Decimal i r) (h1 : TypesForm o t1)
      (h2 : TreeProps H val ps t2) (h3 : StringForm o.toStr t3) :
      TreeText H val (.obj ps) x (element (txt! "Obj") (attrib (txt! "RefId") r ++ x)
        (t1 ++ (if ps = [] then [] else element (txt! "MS") [] t2) ++ t3))
  /-- an object of the user -/
  | other {i : Nat} {x t : PyStr} (h : Form H (val i) x t) : TreeText H val (.other i) x t
  /-- an object that was written before -/
  | again {t : HVal} {i : Nat} {x r : PyStr} (hr : Decimal i r) :
      TreeText H val t x (element (txt! "Ref") (attrib (txt! "RefId") r ++ x) [])
/-- Properties, one after another, with their names. -/
inductive TreeProps (H : Heap) (val : Nat → PVal) : List (PyStr × HVal) → PyStr → Prop
  | nil : TreeProps H val [] []
  | cons {n u t ts : PyStr} {v : HVal} {ps : List (PyStr × HVal)} (hn : Esc n u) (h : TreeText H val v (attrib (txt! "N") u) t)
      (hs : TreeProps H val ps ts) : TreeProps H val ((n, v) :: ps) (t ++ ts)
/-- The entries of a list. -/
inductive TreeItems (H : Heap) (val : Nat → PVal) : List HVal → PyStr → Prop
  | nil : TreeItems H val [] []
  | cons {t ts : PyStr} {v : HVal} {vs : List HVal} (h : TreeText H val v [] t) (hs : TreeItems H val vs ts) :
      TreeItems H val (v :: vs) (t ++ ts)
/-- The entries of a dict, with numbers for keys. -/
inductive TreeEntries (H : Heap) (val : Nat → PVal) : List (Int × HVal) → PyStr → Prop
  | nil : TreeEntries H val [] []
  | cons {n : Int} {k : IntKind} {tk tv ts : PyStr} {v : HVal} {es : List (Int × HVal)} (hk : Signed n tk)
      (hv : TreeText H val v (attrib (txt! "N") (txt! "Value")) tv) (hs : TreeEntries H val es ts) :
      TreeEntries H val ((n, v) :: es) (element (txt! "En") [] (element k.element (attrib (txt! "N") (txt! "Key")) tk ++ tv) ++ ts)
end

/-- A property of a message. -/
def NamedText (H : Heap) (val : Nat → PVal) (name : PyStr) (v : HVal) (t : PyStr) : Prop := TreeText H val v (attrib (txt! "N") name) t

/-- A null value, which is left out of a reply. -/
def HVal.IsNull (val : Nat → PVal) (v : HVal) : Prop := v = .nil ∨ ∃ i, v = .other i ∧ val i = .nil

/-- A truth value of a message. -/
def flagField (name : PyStr) (b : Bool) : PyStr := element (txt! "B") (attrib (txt! "N") name) (if b then txt! "true" else txt! "false")

/-- A number of a message. -/
def NumberField (name type : PyStr) (n : Int) (t : PyStr) : Prop := ∃ u, Signed n u ∧ t = element type (attrib (txt! "N") name) u

/-- The properties of the message with a content, [MS-PSRP] 2.2.2.2, 2.2.2.10, 2.2.2.15, 2.2.2.16, 2.2.2.27 and 2.2.2.28. The thread
options, the apartment state and the arguments of an opening are not part of the content. -/
def Content.Fields (H : Heap) (val : Nat → PVal) : Content → PyStr → Prop
  | hostCall ci c, t => ∃ number ps t1 t2 t3, (c.meaning.1, number) ∈ methodNumbers ∧ All2 HParam.Layout c.meaning.2 ps ∧
      NumberField (txt! "ci") (txt! "I64") ci t1 ∧ NamedText H val (txt! "mi") (.enum number) t2 ∧ NamedText H val (txt! "mp") (.list ps) t3 ∧
      t = t1 ++ t2 ++ t3
  | hostReply ci r, t => ∃ number v t1 t2 t3, (r.meaning.1, number) ∈ methodNumbers ∧ r.meaning.2.Layout v ∧
      NumberField (txt! "ci") (txt! "I64") ci t1 ∧ NamedText H val (txt! "mi") (.enum number) t2 ∧
      (NamedText H val (txt! "mr") v t3 ∨ (v.IsNull val ∧ t3 = [])) ∧ t = t1 ++ t2 ++ t3
  | pipeline p peer, t => ∃ host command t1 t2 t3 t4, p.host.Layout host ∧ p.Layout (peer.getD ⟨2, 0, none, none⟩) command ∧
      NamedText H val (txt! "ApartmentState") (.orNull (fun n => .enum (Int.ofNat n)) p.apartmentState) t1 ∧
      NamedText H val (txt! "RemoteStreamOptions") (.enum p.remoteStreamOptions) t2 ∧ NamedText H val (txt! "HostInfo") host t3 ∧
      NamedText H val (txt! "PowerShell") command t4 ∧
      t = flagField (txt! "NoInput") p.noInput ++ t1 ++ t2 ++ flagField (txt! "AddToHistory") p.addToHistory ++ t3 ++ t4 ++
        flagField (txt! "IsNested") p.isNested
  | opening min max h, t => ∃ host t1 t2 t3 t4 t5, h.Layout host ∧ NumberField (txt! "MinRunspaces") (txt! "I32") min t1 ∧
      NumberField (txt! "MaxRunspaces") (txt! "I32") max t2 ∧ NamedText H val (txt! "HostInfo") host t4 ∧ t = t1 ++ t2 ++ t3 ++ t4 ++ t5

/-- The text of the data of a message with these properties. The object may say that it is a `System.Object`. -/
def ContentText (H : Heap) (val : Nat → PVal) (c : Content) (t : PyStr) : Prop :=
  ∃ t1 t2, (t1 = [] ∨ t1 = element (txt! "TN") (attrib (txt! "RefId") (txt! "0")) (element (txt! "T") [] (txt! "System.Object"))) ∧
    c.Fields H val t2 ∧ t = element (txt! "Obj") (attrib (txt! "RefId") (txt! "0")) (t1 ++ element (txt! "MS") [] t2)

end Verif
