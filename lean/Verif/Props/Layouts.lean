import Verif.Proof.Layouts
import Verif.Props.Contents
import Verif.Props.Messages

/-! # The layout of host calls, replies, host information and pipelines (C85) -/

namespace Verif

/-- **C85** A call of the host has the number of its method and the parameters in the layout of the protocol. -/
theorem C85_call {strict : Bool} (c : HostCall) (h : c.Valid strict) :
    ∃ m ps, c.encode strict = .ok (m, ps) ∧ m = c.meaning.1 ∧ (m, m.value) ∈ methodNumbers ∧ All2 HParam.Layout c.meaning.2 ps := by
  obtain ⟨ps, h1, h2⟩ := call_layout h
  exact ⟨_, ps, h1, rfl, method_number _, h2⟩

/-- **C85** The number of a method is the one of the table and of no other method. -/
theorem C85_number (m : HostMethod) (n : Nat) : m.value = n ↔ (m, n) ∈ methodNumbers := by
  constructor
  · rintro rfl
    exact method_number m
  · have all : ∀ q ∈ methodNumbers, q.1.value = q.2 := by decide +kernel
    exact fun h => all _ h

/-- **C85** The same for replies. -/
theorem C85_reply {strict : Bool} (r : HostReply) (h : r.Valid strict) :
    ∃ v, r.encode strict = .ok v ∧ (r.meaning.1, r.meaning.1.value) ∈ methodNumbers ∧ r.meaning.2.Layout v := by
  obtain ⟨v, h1, h2⟩ := reply_layout h
  exact ⟨v, h1, method_number _, h2⟩

/-- **C85** Host information. -/
theorem C85_host_info (h : HostInfo) (hd : ∀ d ∈ h.defaultData, d.Valid) : ∃ v, h.toHost = .ok v ∧ h.Layout v := hostInfo_layout hd

/-- **C85** A command, for a peer of any version; a peer that has not told its version has 2.0. -/
theorem C85_command (c : Command HVal) (peer : Option PSVersion) :
    c.Layout (peer.getD ⟨2, 0, none, none⟩) (c.toRemoting peer).tree := command_layout c peer

/-- **C85** The commands of a pipeline. -/
theorem C85_pipeline (p : PowerShell HVal HostInfo) (peer : Option PSVersion) (h : p.commands ≠ []) :
    ∃ m, p.toRemoting peer = .ok m ∧ p.Layout (peer.getD ⟨2, 0, none, none⟩) m.commandTree := by
  refine ⟨_, by unfold PowerShell.toRemoting; rw [if_neg h], pipeline_layout (by unfold PowerShell.toRemoting; rw [if_neg h])⟩

/-- **C85** (partial) The data of the message with a call, a reply, a pipeline or an opening has the text of these layouts.
Missing: the objects that have no form (C68). -/
theorem C85_document_partial (E : TextEnv) (n : Nat) (strict : Bool) (c : Content) (valid : c.Valid strict) (l : Letter) (H : Heap)
    (val : Nat → PVal) (sent : c.SentAs strict H.look val l) (a k : Nat) (sh : Shape) (hs : l.shape = .ok sh)
    (objects : GraphFormal E H l.objects) (fresh : ∀ b, Reach H l.objects b → b ≠ a)
    (t : MsgType) (data : Bytes) (h : messageData E n l.type (sh.outgoing H a k) = .ok (t, data)) :
    t = l.type ∧ ∃ text, ContentText H val c text ∧ data = text.flatMap utf8Char := by
  have fields : l.FieldsFormal E := by
    cases c with
    | hostCall ci c => obtain ⟨_, _, _, _, _, rfl | rfl, _⟩ := sent <;> trivial
    | hostReply ci r => obtain ⟨_, _, _, _, rfl | rfl, _⟩ := sent <;> trivial
    | pipeline p peer => obtain ⟨_, _, _, _, _, _, _, _, rfl, _⟩ := sent; trivial
    | opening min max hi => obtain ⟨_, _, _, _, _, _, rfl, _⟩ := sent; trivial
  obtain ⟨h1, text, h2, h3⟩ := C84_body_partial E n l H a k sh hs fields objects fresh t data h
  exact ⟨h1, text, content_text valid sent h2, h3⟩

/-! ### Cases -/

/-- Beside `C85_call`: a screen of two rows. -/
example : ∃ c : HostCall, c.Valid true ∧ c.encode true = .ok (.SetBufferContents2,
    [.obj [(txt! "x", .int 3), (txt! "y", .int 4)], .obj [(txt! "mae", .list [
      .obj [(txt! "character", .char 65), (txt! "foregroundColor", .int 15), (txt! "backgroundColor", .int 0), (txt! "bufferCellType", .int 0)],
      .obj [(txt! "character", .char 66), (txt! "foregroundColor", .int 15), (txt! "backgroundColor", .int 0), (txt! "bufferCellType", .int 0)]]),
      (txt! "mal", .list [.int 2, .int 1])]]) := by
  refine ⟨.setBufferContents 3 4 [[sampleCell 65], [sampleCell 66]], ⟨by unfold Int32; omega, by unfold Int32; omega,
    ⟨by simp, 1, by omega, by simp⟩, ?_⟩, rfl⟩
  intro row hr c hc
  simp only [List.mem_cons, List.not_mem_nil, or_false] at hr
  rcases hr with rfl | rfl <;> simp only [List.mem_cons, List.not_mem_nil, or_false] at hc <;> subst hc <;>
    exact sampleCell_valid _ (by unfold IsUnit; omega)

/-- A layout excludes other trees: positions have no other names. -/
example : ¬ HParam.Layout (.coordinates ⟨some 3, some 4⟩) (.obj [(txt! "y", .int 3), (txt! "x", .int 4)]) := by
  intro h
  cases h with | coordinates h => simp [Coordinates.Layout] at h

/-- Beside `C85_number`. -/
example : (HostMethod.PromptForChoice, 26) ∈ methodNumbers ∧ (HostMethod.PromptForChoice, 27) ∉ methodNumbers := by decide +kernel

/-- Beside `C85_reply`: a key. -/
example : (HostReply.key (.str [65]) true 16 65).Valid true ∧ (HostReply.key (.str [65]) true 16 65).encode true =
    .ok (.obj [(txt! "virtualKeyCode", .int 65), (txt! "character", .char 65), (txt! "controlKeyState", .int 16), (txt! "keyDown", .bool true)]) :=
  ⟨⟨by unfold IsCharArg; omega, fun _ => (and_eq_iff _ _).mp (by decide +kernel), by unfold Int32; omega⟩, rfl⟩

/-- Beside `C85_host_info`. -/
def sampleHost : HostInfo where
  isHostNull := some false
  defaultData := some ⟨some 7, some 0, some ⟨some 0, some 1⟩, some ⟨some 0, some 0⟩, some 25, some ⟨some 120, some 3000⟩, some ⟨some 120, some 50⟩,
    some ⟨some 120, some 90⟩, some ⟨some 320, some 90⟩, some (txt! "host")⟩

example : ∃ v, sampleHost.toHost = .ok v ∧ sampleHost.Layout v := by
  refine C85_host_info _ ?_
  rintro d ⟨⟩
  refine ⟨⟨_, rfl, by unfold IsColor; omega⟩, ⟨_, rfl, by unfold IsColor; omega⟩, ⟨_, rfl, ?_⟩, ⟨_, rfl, ?_⟩, ⟨_, rfl, by unfold Int32; omega⟩,
    ⟨_, rfl, ?_⟩, ⟨_, rfl, ?_⟩, ⟨_, rfl, ?_⟩, ⟨_, rfl, ?_⟩, _, rfl⟩
  all_goals exact ⟨by rintro _ ⟨⟩; unfold Int32; omega, by rintro _ ⟨⟩; unfold Int32; omega⟩

/-- Beside `C85_command`: a peer of version 2.2 is not told about information records, one of version 2.0 about no stream. -/
example (c : Command HVal) (h : c.mergeUnclaimed = true) (hp : c.parameters = []) : (c.toRemoting (some ⟨2, 1, none, none⟩)).tree =
    .obj [(txt! "Cmd", .str c.commandText), (txt! "Args", .list []), (txt! "IsScript", .bool c.isScript),
      (txt! "UseLocalScope", .orNull .bool c.useLocalScope), (txt! "MergeMyResult", .enum c.mergeMy), (txt! "MergeToResult", .enum c.mergeTo),
      (txt! "MergePreviousResults", .enum 3)] := by
  have := C85_command c (some ⟨2, 1, none, none⟩)
  simpa [Command.Layout, PSVersion.AtLeast2, h, hp] using this

/-- Beside `C85_pipeline`: a command that ends its statement has an empty one behind it. -/
example : ∃ m, PowerShell.toRemoting { commands := [{ commandText := txt! "a", endOfStatement := true }], host := ({} : HostInfo) }
    none = .ok m ∧ ∃ c, CreatePipeline.commandTree m = .obj [(txt! "Cmds", .list [c]), (txt! "IsNested", .bool false), (txt! "History", .nil),
      (txt! "RedirectShellErrorOutputPipe", .bool true), (txt! "ExtraCmds", .list [.obj [(txt! "Cmds", .list [c])], .obj [(txt! "Cmds", .list [])]])] :=
  ⟨_, rfl, _, rfl⟩

/-- Beside `C85_document_partial`: the call and the pipeline of C75. -/
theorem contents_formal : ∀ l ∈ contentLetters, GraphFormal plainEnv contentHeap l.objects ∧ (∀ b, Reach contentHeap l.objects b → b ≠ 100) := by
  intro l hl
  have ok := contents_ok (contentPost l) (by rw [contents_posts]; exact List.mem_map.mpr ⟨l, hl, rfl⟩)
  refine ⟨formal_of_ok ok.graph ?_ ?_, ok.addr⟩
  · have : ∀ l ∈ contentLetters, ∀ v ∈ l.objects, v.noDecimal = true := by decide +kernel
    exact fun p hp => noDecimal_iff.mp (this l hl _ hp)
  · intro a ha
    have hm : a ∈ List.range 19 := reach_within (contents_graph l hl).2.2.1 (by decide +kernel) ha
    have all : ∀ a ∈ List.range 19, (∀ v ∈ (contentHeap a).values, v.noDecimal = true) ∧
        (match (contentHeap a).data with | .ext p => noDecimal p | .enum p => noDecimal p | _ => true) = true := by decide +kernel
    obtain ⟨h1, h2⟩ := all a hm
    refine ⟨fun p hp => noDecimal_iff.mp (h1 _ hp), fun p hp => noDecimal_iff.mp ?_⟩
    rcases hp with hp | hp <;> (change (contentHeap a).data = _ at hp; rw [hp] at h2; exact h2)

theorem contents_layout : ∀ q ∈ [(Content.hostCall 7 exampleCall, contentLetters[0]), (.pipeline contentPipeline (some Pwsh5), contentLetters[1])],
    ∃ sh data, q.2.shape = .ok sh ∧ messageData plainEnv 20 q.2.type (sh.outgoing contentHeap 100 100) = .ok (q.2.type, data) ∧
      ∃ text, ContentText contentHeap (fun _ => .ref 12) q.1 text ∧ data = text.flatMap utf8Char := by
  have key : ∀ c : Content, ∀ l ∈ contentLetters, c.Valid true → c.SentAs true contentHeap.look (fun _ => .ref 12) l →
      ∃ sh data, l.shape = .ok sh ∧ messageData plainEnv 20 l.type (sh.outgoing contentHeap 100 100) = .ok (l.type, data) ∧
      ∃ text, ContentText contentHeap (fun _ => .ref 12) c text ∧ data = text.flatMap utf8Char := by
    intro c l hl hv hsent
    obtain ⟨k, _, hk⟩ := contents_size l hl
    unfold contentSize at hk
    cases hs : l.shape with
    | error e => rw [hs] at hk; cases hk
    | ok sh =>
      rw [hs] at hk
      dsimp only at hk
      cases hd : messageData plainEnv 20 l.type (sh.outgoing contentHeap 100 100) with
      | error e => rw [hd] at hk; cases hk
      | ok q =>
        obtain ⟨t, d⟩ := q
        obtain ⟨h1, h2⟩ := contents_formal l hl
        obtain ⟨rfl, h⟩ := C85_document_partial plainEnv 20 true c hv l contentHeap _ hsent 100 100 sh hs h1 h2 t d hd
        exact ⟨sh, d, rfl, hd, h⟩
  have s1 := content_call
  have s2 := content_pipeline
  unfold Content.Sent at s1 s2
  rw [content_completed] at s1 s2
  intro q hq
  simp only [List.mem_cons, List.not_mem_nil, or_false] at hq
  rcases hq with rfl | rfl
  · exact key _ _ (by simp [contentLetters]) content_valid.1 s1
  · exact key _ _ (by simp [contentLetters]) content_valid.2 s2

/-- The text of the call. -/
example : ∃ sh, contentLetters[0].shape = .ok sh ∧ messageData plainEnv 20 .PipelineHostCall (sh.outgoing contentHeap 100 100) =
    .ok (.PipelineHostCall, (txt! "<Obj RefId=\"0\"><MS><I64 N=\"ci\">7</I64><Obj RefId=\"1\" N=\"mi\"><I32>26</I32><TN RefId=\"0\"><T>System.Management.Automation.Remoting.RemoteHostMethodId</T><T>System.Enum</T><T>System.ValueType</T><T>System.Object</T></TN><ToString>PromptForChoice</ToString></Obj><Obj RefId=\"2\" N=\"mp\"><TN RefId=\"1\"><T>System.Collections.ArrayList</T><T>System.Object</T></TN><LST><S>Confirm</S><S>Sure?</S><Obj RefId=\"3\"><TNRef RefId=\"1\" /><LST><Obj RefId=\"4\"><MS><S N=\"label\">&amp;Yes</S><Nil N=\"helpMessage\" /></MS></Obj></LST></Obj><I32>0</I32></LST></Obj></MS></Obj>").map fun c => UInt8.ofNat c) :=
  ⟨_, rfl, by decide +kernel⟩

end Verif
