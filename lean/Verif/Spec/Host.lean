import Verif.Model.Host
import Verif.Spec.Enum

/-! # What the theorems on host calls speak about (C38, C46, C59) -/

namespace Verif

/-- All rows have the same length, there is at least one row and one column. -/
def Rectangular {α : Type} (vs : List (List α)) : Prop :=
  vs ≠ [] ∧ ∃ c, 0 < c ∧ ∀ row ∈ vs, row.length = c

/-- A 32 bit signed integer. -/
def Int32 (n : Int) : Prop := -2147483648 ≤ n ∧ n ≤ 2147483647

/-- A number of a console colour. -/
def IsColor (c : Int) : Prop := 0 ≤ c ∧ c ≤ 15

/-- A number of a UTF-16 code unit. -/
def IsUnit (c : Int) : Prop := 0 ≤ c ∧ c ≤ 65535

/-- A value of a flag class: since Python 3.11 it has no unknown bits. -/
def IsFlag (strict : Bool) (ms : Members Nat) (v : Nat) : Prop := strict = true → BitsIn v (flagMask ms)

/-- The number of the character that is meant by a number, a `PSChar` or a text of one character. -/
def charNumber : HVal → Int
  | .int n => n
  | .char n => n
  | .str [c] => c
  | _ => -1

/-- A character: its number, a `PSChar` or a text of one character of the basic plane that is no
surrogate. -/
def IsCharArg : HVal → Prop
  | .int n => IsUnit n
  | .char n => IsUnit n
  | .str [c] => c < 65536 ∧ ¬ (55296 ≤ c ∧ c < 57344)
  | _ => False

/-- The values of the class, as the constructor makes them. -/
def Coordinates.Valid (c : Coordinates) : Prop := (∀ n ∈ c.x, Int32 n) ∧ ∀ n ∈ c.y, Int32 n

/-- The values of the class, as the constructor makes them. -/
def HostSize.Valid (c : HostSize) : Prop := (∀ n ∈ c.width, Int32 n) ∧ ∀ n ∈ c.height, Int32 n

/-- The values of the class, as the constructor makes them. -/
def Rectangle.Valid (c : Rectangle) : Prop :=
  (∀ n ∈ c.left, Int32 n) ∧ (∀ n ∈ c.top, Int32 n) ∧ (∀ n ∈ c.right, Int32 n) ∧ ∀ n ∈ c.bottom, Int32 n

/-- The values of the class with a control key state. -/
def KeyInfo.Valid (strict : Bool) (k : KeyInfo) : Prop :=
  (∀ n ∈ k.virtualKeyCode, Int32 n) ∧ (∀ c ∈ k.character, IsUnit c) ∧
  ∃ st, k.controlKeyState = some st ∧ IsFlag strict controlKeyStates st

/-- The values of the class with colours and a cell type. -/
def BufferCell.Valid (strict : Bool) (b : BufferCell) : Prop :=
  (∀ c ∈ b.character, IsUnit c) ∧ (∃ c, b.foreground = some c ∧ IsColor c) ∧
  (∃ c, b.background = some c ∧ IsColor c) ∧ ∃ t, b.cellType = some t ∧ IsFlag strict bufferCellTypes t

/-- The values of the class, as the constructor makes them. -/
def HostProgress.Valid (p : HostProgress) : Prop :=
  (∀ n ∈ p.activityId, Int32 n) ∧ (∀ n ∈ p.parentActivityId, Int32 n) ∧
  (∀ n ∈ p.percentComplete, Int32 n) ∧ (∀ n ∈ p.secondsRemaining, Int32 n) ∧
  ∀ t ∈ p.recordType, t = 0 ∨ t = 1

/-- All ten values are there. -/
def HostDefaultData.Valid (d : HostDefaultData) : Prop :=
  (∃ c, d.foreground = some c ∧ IsColor c) ∧ (∃ c, d.background = some c ∧ IsColor c) ∧
  (∃ c, d.cursorPosition = some c ∧ c.Valid) ∧ (∃ c, d.windowPosition = some c ∧ c.Valid) ∧
  (∃ n, d.cursorSize = some n ∧ Int32 n) ∧ (∃ s, d.bufferSize = some s ∧ s.Valid) ∧
  (∃ s, d.windowSize = some s ∧ s.Valid) ∧ (∃ s, d.maxWindowSize = some s ∧ s.Valid) ∧
  (∃ s, d.maxPhysicalWindowSize = some s ∧ s.Valid) ∧ ∃ t, d.windowTitle = some t

/-- A field description without a default value and attributes. -/
def FieldDescription.Bare (f : FieldDescription) : Prop := f.defaultValue = .nil ∧ f.attributes = some []

/-- The arguments of a call have the types the API documents; the fields of a prompt are bare. -/
def HostCall.Valid (strict : Bool) : HostCall → Prop
  | .get m => m.plain = true
  | .write _ fg bg => (∀ c ∈ fg, IsColor c) ∧ ∀ c ∈ bg, IsColor c
  | .writeLine _ fg bg => (∀ c ∈ fg, IsColor c) ∧ ∀ c ∈ bg, IsColor c
  | .writeProgress _ p => p.Valid
  | .prompt _ _ fs => ∀ f ∈ fs, f.Bare
  | .promptForCredential _ _ _ _ types options =>
    (∀ f ∈ types, IsFlag strict credentialTypes f) ∧ ∀ f ∈ options, IsFlag strict credentialUIOptions f
  | .setForegroundColor c => IsColor c
  | .setBackgroundColor c => IsColor c
  | .setCursorPosition x y => Int32 x ∧ Int32 y
  | .setWindowPosition x y => Int32 x ∧ Int32 y
  | .setBufferSize w h => Int32 w ∧ Int32 h
  | .setWindowSize w h => Int32 w ∧ Int32 h
  | .readKey o => IsFlag strict readKeyOptions o
  | .setBufferCells l t r b ch fg bg =>
    Int32 l ∧ Int32 t ∧ Int32 r ∧ Int32 b ∧ IsCharArg ch ∧ IsColor fg ∧ IsColor bg
  | .setBufferContents x y cells =>
    Int32 x ∧ Int32 y ∧ Rectangular cells ∧ ∀ row ∈ cells, ∀ c ∈ row, c.Valid strict
  | .getBufferContents l t r b => Int32 l ∧ Int32 t ∧ Int32 r ∧ Int32 b
  | .scrollBufferContents (l, t, r, b) x y (l', t', r', b') ch fg bg =>
    Int32 l ∧ Int32 t ∧ Int32 r ∧ Int32 b ∧ Int32 x ∧ Int32 y ∧
    Int32 l' ∧ Int32 t' ∧ Int32 r' ∧ Int32 b' ∧ IsCharArg ch ∧ IsColor fg ∧ IsColor bg
  | _ => True

/-- The method a call is meant for and the parameters the client is meant to see. -/
def HostCall.meaning : HostCall → HostMethod × List HParam
  | .get m => (m, [])
  | .setShouldExit c => (.SetShouldExit, [.raw c])
  | .write v none none => (.Write1, [.raw v])
  | .write v fg bg => (.Write2, [.color (fg.getD 0), .color (bg.getD 0), .raw v])
  | .writeLine none none none => (.WriteLine1, [])
  | .writeLine (some l) none none => (.WriteLine2, [.raw (.str l)])
  | .writeLine l fg bg => (.WriteLine3, [.color (fg.getD 0), .color (bg.getD 0), .raw (.str (l.getD []))])
  | .writeErrorLine l => (.WriteErrorLine, [.raw l])
  | .writeDebugLine l => (.WriteDebugLine, [.raw l])
  | .writeProgress s p => (.WriteProgress, [.raw s, .progress p])
  | .writeVerboseLine l => (.WriteVerboseLine, [.raw l])
  | .writeWarningLine l => (.WriteWarningLine, [.raw l])
  | .prompt c m fs => (.Prompt, [.raw c, .raw m, .fields fs])
  | .promptForCredential c m u t none none =>
    (.PromptForCredential1, [.raw c, .raw m, .raw u, .raw (.str (t.getD []))])
  | .promptForCredential c m u t types options =>
    (.PromptForCredential2, [.raw c, .raw m, .raw u, .raw (.str (t.getD [])),
      .credentialTypes (types.getD 3), .credentialOptions (options.getD 1)])
  | .promptForChoice c m cs d => (.PromptForChoice, [.raw c, .raw m, .choices cs, .raw d])
  | .promptForMultipleChoice c m cs ds =>
    (.PromptForChoiceMultipleSelection, [.raw c, .raw m, .choices cs, .raw (.list (ds.getD []))])
  | .setForegroundColor c => (.SetForegroundColor, [.color c])
  | .setBackgroundColor c => (.SetBackgroundColor, [.color c])
  | .setCursorPosition x y => (.SetCursorPosition, [.coordinates ⟨some x, some y⟩])
  | .setWindowPosition x y => (.SetWindowPosition, [.coordinates ⟨some x, some y⟩])
  | .setCursorSize s => (.SetCursorSize, [.raw s])
  | .setBufferSize w h => (.SetBufferSize, [.size ⟨some w, some h⟩])
  | .setWindowSize w h => (.SetWindowSize, [.size ⟨some w, some h⟩])
  | .setWindowTitle t => (.SetWindowTitle, [.raw t])
  | .readKey o => (.ReadKey, [.readKeyOptions o])
  | .setBufferCells l t r b ch fg bg =>
    (.SetBufferContents1, [.rectangle ⟨some l, some t, some r, some b⟩,
      .cell ⟨some (charNumber ch), some fg, some bg, some 0⟩])
  | .setBufferContents x y cells => (.SetBufferContents2, [.coordinates ⟨some x, some y⟩, .cells cells])
  | .getBufferContents l t r b => (.GetBufferContents, [.rectangle ⟨some l, some t, some r, some b⟩])
  | .scrollBufferContents (l, t, r, b) x y (l', t', r', b') ch fg bg =>
    (.ScrollBufferContents, [.rectangle ⟨some l, some t, some r, some b⟩, .coordinates ⟨some x, some y⟩,
      .rectangle ⟨some l', some t', some r', some b'⟩, .cell ⟨some (charNumber ch), some fg, some bg, some 0⟩])

/-- The methods whose replies are passed on as they are. -/
def HostMethod.plainReply : HostMethod → Bool
  | .GetName | .GetVersion | .GetInstanceId | .GetCurrentCulture | .GetCurrentUICulture
  | .GetIsRunspacePushed | .ReadLine | .ReadLineAsSecureString | .Prompt | .PromptForCredential1
  | .PromptForCredential2 | .PromptForChoice | .GetCursorSize | .GetWindowTitle | .GetKeyAvailable => true
  | _ => false

/-- The method a reply is for and the result the server is meant to see. -/
def HostReply.meaning : HostReply → HostMethod × HParam
  | .plain m v => (m, .raw v)
  | .multipleChoice (.list l) => (.PromptForChoiceMultipleSelection, .raw (.list l))
  | .multipleChoice v => (.PromptForChoiceMultipleSelection, .raw (.list [v]))
  | .color m c => (m, .color c)
  | .coordinates m x y => (m, .coordinates ⟨some x, some y⟩)
  | .size m w h => (m, .size ⟨some w, some h⟩)
  | .key ch dn st code => (.ReadKey, .key ⟨some code, some (charNumber ch), some st, some dn⟩)
  | .contents cells => (.GetBufferContents, .cells cells)

/-- The arguments of a reply have the types the API documents, for the method of its name. -/
def HostReply.Valid (strict : Bool) : HostReply → Prop
  | .plain m _ => m.plainReply = true
  | .multipleChoice _ => True
  | .color m c => (m = .GetForegroundColor ∨ m = .GetBackgroundColor) ∧ IsColor c
  | .coordinates m x y => (m = .GetCursorPosition ∨ m = .GetWindowPosition) ∧ Int32 x ∧ Int32 y
  | .size m w h =>
    (m = .GetBufferSize ∨ m = .GetWindowSize ∨ m = .GetMaxWindowSize ∨ m = .GetMaxPhysicalWindowSize) ∧
    Int32 w ∧ Int32 h
  | .key ch _ st code => IsCharArg ch ∧ IsFlag strict controlKeyStates st ∧ Int32 code
  | .contents cells => Rectangular cells ∧ ∀ row ∈ cells, ∀ c ∈ row, c.Valid strict

end Verif
