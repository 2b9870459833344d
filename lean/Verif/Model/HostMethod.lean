import Verif.Model.Common

/-! # Host method identifiers -/

namespace Verif

/-- `HostMethodIdentifier`, /repo/src/psrpcore/types/_host.py:21-89. -/
inductive HostMethod
  | GetName | GetVersion | GetInstanceId | GetCurrentCulture | GetCurrentUICulture
  | SetShouldExit | EnterNestedPrompt | ExitNestedPrompt | NotifyBeginApplication
  | NotifyEndApplication | ReadLine | ReadLineAsSecureString | Write1 | Write2 | WriteLine1
  | WriteLine2 | WriteLine3 | WriteErrorLine | WriteDebugLine | WriteProgress
  | WriteVerboseLine | WriteWarningLine | Prompt | PromptForCredential1 | PromptForCredential2
  | PromptForChoice | GetForegroundColor | SetForegroundColor | GetBackgroundColor
  | SetBackgroundColor | GetCursorPosition | SetCursorPosition | GetWindowPosition
  | SetWindowPosition | GetCursorSize | SetCursorSize | GetBufferSize | SetBufferSize
  | GetWindowSize | SetWindowSize | GetWindowTitle | SetWindowTitle | GetMaxWindowSize
  | GetMaxPhysicalWindowSize | GetKeyAvailable | ReadKey | FlushInputBuffer
  | SetBufferContents1 | SetBufferContents2 | GetBufferContents | ScrollBufferContents
  | PushRunspace | PopRunspace | GetIsRunspacePushed | GetRunspace
  | PromptForChoiceMultipleSelection 
deriving DecidableEq, Repr

/-- All members in definition order, /repo/src/psrpcore/types/_host.py:34-89. -/
def HostMethod.all : List HostMethod :=
  [.GetName, .GetVersion, .GetInstanceId, .GetCurrentCulture, .GetCurrentUICulture,
   .SetShouldExit, .EnterNestedPrompt, .ExitNestedPrompt, .NotifyBeginApplication,
   .NotifyEndApplication, .ReadLine, .ReadLineAsSecureString, .Write1, .Write2, .WriteLine1,
   .WriteLine2, .WriteLine3, .WriteErrorLine, .WriteDebugLine, .WriteProgress,
   .WriteVerboseLine, .WriteWarningLine, .Prompt, .PromptForCredential1, .PromptForCredential2,
   .PromptForChoice, .GetForegroundColor, .SetForegroundColor, .GetBackgroundColor,
   .SetBackgroundColor, .GetCursorPosition, .SetCursorPosition, .GetWindowPosition,
   .SetWindowPosition, .GetCursorSize, .SetCursorSize, .GetBufferSize, .SetBufferSize,
   .GetWindowSize, .SetWindowSize, .GetWindowTitle, .SetWindowTitle, .GetMaxWindowSize,
   .GetMaxPhysicalWindowSize, .GetKeyAvailable, .ReadKey, .FlushInputBuffer,
   .SetBufferContents1, .SetBufferContents2, .GetBufferContents, .ScrollBufferContents,
   .PushRunspace, .PopRunspace, .GetIsRunspacePushed, .GetRunspace,
   .PromptForChoiceMultipleSelection]

/-- The numeric values, /repo/src/psrpcore/types/_host.py:34-89. -/
def HostMethod.value : HostMethod → Nat
  | GetName => 1
  | GetVersion => 2
  | GetInstanceId => 3
  | GetCurrentCulture => 4
  | GetCurrentUICulture => 5
  | SetShouldExit => 6
  | EnterNestedPrompt => 7
  | ExitNestedPrompt => 8
  | NotifyBeginApplication => 9
  | NotifyEndApplication => 10
  | ReadLine => 11
  | ReadLineAsSecureString => 12
  | Write1 => 13
  | Write2 => 14
  | WriteLine1 => 15
  | WriteLine2 => 16
  | WriteLine3 => 17
  | WriteErrorLine => 18
  | WriteDebugLine => 19
  | WriteProgress => 20
  | WriteVerboseLine => 21
  | WriteWarningLine => 22
  | Prompt => 23
  | PromptForCredential1 => 24
  | PromptForCredential2 => 25
  | PromptForChoice => 26
  | GetForegroundColor => 27
  | SetForegroundColor => 28
  | GetBackgroundColor => 29
  | SetBackgroundColor => 30
  | GetCursorPosition => 31
  | SetCursorPosition => 32
  | GetWindowPosition => 33
  | SetWindowPosition => 34
  | GetCursorSize => 35
  | SetCursorSize => 36
  | GetBufferSize => 37
  | SetBufferSize => 38
  | GetWindowSize => 39
  | SetWindowSize => 40
  | GetWindowTitle => 41
  | SetWindowTitle => 42
  | GetMaxWindowSize => 43
  | GetMaxPhysicalWindowSize => 44
  | GetKeyAvailable => 45
  | ReadKey => 46
  | FlushInputBuffer => 47
  | SetBufferContents1 => 48
  | SetBufferContents2 => 49
  | GetBufferContents => 50
  | ScrollBufferContents => 51
  | PushRunspace => 52
  | PopRunspace => 53
  | GetIsRunspacePushed => 54
  | GetRunspace => 55
  | PromptForChoiceMultipleSelection => 56

/-- `HostMethodIdentifier.is_void`, /repo/src/psrpcore/types/_host.py:91-123. -/
def HostMethod.isVoid (m : HostMethod) : Bool :=
  [.SetShouldExit, .EnterNestedPrompt, .ExitNestedPrompt, .NotifyBeginApplication,
   .NotifyEndApplication, .PushRunspace, .PopRunspace, .Write1, .Write2, .WriteLine1,
   .WriteLine2, .WriteLine3, .WriteErrorLine, .WriteDebugLine, .WriteProgress,
   .WriteVerboseLine, .WriteWarningLine, .SetForegroundColor, .SetBackgroundColor,
   .SetCursorPosition, .SetWindowPosition, .SetCursorSize, .SetBufferSize, .SetWindowSize,
   .SetWindowTitle, .FlushInputBuffer, .SetBufferContents1, .SetBufferContents2,
   .ScrollBufferContents].contains m

end Verif
