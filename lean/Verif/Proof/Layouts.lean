import Verif.Spec.Layouts
import Verif.Proof.Host
import Verif.Proof.Command
import Verif.Proof.Contents
import Verif.Proof.Messages

/-! # Lemmas on the layout of host calls, replies, host information and pipelines (C85) -/

namespace Verif

/-! ## Host calls -/

theorem method_number (m : HostMethod) : (m, m.value) ∈ methodNumbers := by cases m <;> decide +kernel

theorem coordinates_layout (c : Coordinates) : c.Layout c.toHost := by obtain ⟨x, y⟩ := c; cases x <;> cases y <;> rfl

theorem size_layout (c : HostSize) : c.Layout c.toHost := by obtain ⟨x, y⟩ := c; cases x <;> cases y <;> rfl

theorem ofInt_orNull (o : Option Int) : HVal.ofInt o = .orNull .int o := by cases o <;> rfl

theorem ofStr_orNull (o : Option PyStr) : HVal.ofStr o = .orNull .str o := by cases o <;> rfl

theorem ofBool_orNull (o : Option Bool) : HVal.ofBool o = .orNull .bool o := by cases o <;> rfl

theorem ofChar_orNull (o : Option Int) : HVal.ofChar o = .orNull .char o := by cases o <;> rfl

theorem ofEnum_orNull (o : Option Int) : HVal.ofEnum o = .orNull .enum o := by cases o <;> rfl

theorem rectangle_layout (c : Rectangle) : c.Layout c.toHost := by
  unfold Rectangle.Layout Rectangle.toHost
  simp only [ofInt_orNull]
  rfl

theorem key_layout {k : KeyInfo} {v : HVal} (h : k.toHost = .ok v) : k.Layout v := by
  unfold KeyInfo.toHost at h
  split at h
  · cases h
  · rename_i st hst
    cases h
    refine ⟨st, hst, ?_⟩
    simp only [ofInt_orNull, ofChar_orNull, ofBool_orNull]
    rfl

theorem cell_layout {c : BufferCell} {v : HVal} (h : c.toHost = .ok v) : c.Layout v := by
  unfold BufferCell.toHost at h
  split at h
  · rename_i fg bg ty h1 h2 h3
    cases h
    refine ⟨fg, bg, ty, h1, h2, h3, ?_⟩
    simp only [ofChar_orNull]
    rfl
  · cases h

theorem choice_layout (c : ChoiceDescription) : c.Layout c.toHost := by
  unfold ChoiceDescription.Layout ChoiceDescription.toHost
  simp only [ofStr_orNull]
  rfl

theorem field_layout (f : FieldDescription) : f.Layout f.toHost := by
  unfold FieldDescription.Layout FieldDescription.toHost
  simp only [ofStr_orNull, ofBool_orNull]
  rfl

theorem progress_layout (p : HostProgress) : p.Layout p.toHost := by
  unfold HostProgress.Layout HostProgress.toHost
  simp only [ofStr_orNull, ofInt_orNull, ofEnum_orNull]
  rfl

theorem all2_map {α β : Type} {R : α → β → Prop} {f : α → β} (h : ∀ a, R a (f a)) (as : List α) : All2 R as (as.map f) := by
  induction as with
  | nil => exact .nil
  | cons a as ih => exact .cons (h a) ih

theorem all2_mapM {α β : Type} {R : α → β → Prop} {f : α → Except Err β} (h : ∀ a b, f a = .ok b → R a b) {as : List α} {bs : List β}
    (hm : as.mapM f = .ok bs) : All2 R as bs := by
  induction as generalizing bs with
  | nil => cases hm; exact .nil
  | cons a as ih =>
    rw [List.mapM_cons] at hm
    cases h1 : f a with
    | error e => rw [h1] at hm; cases hm
    | ok b =>
      cases h2 : as.mapM f with
      | error e => rw [h1, h2] at hm; cases hm
      | ok bs' =>
        rw [h1, h2] at hm
        cases hm
        exact .cons (h a b h1) (ih h2)

theorem cells_layout {rows : List (List BufferCell)} {v : HVal} (hr : Rectangular rows)
    (h : createArray BufferCell.toHost rows = .ok v) : HParam.Layout (.cells rows) v := by
  obtain ⟨hne, c, _, hc⟩ := hr
  unfold createArray at h
  cases hh : rows.head? with
  | none => rw [hh] at h; cases h
  | some row =>
    rw [hh] at h
    dsimp only at h
    cases hm : rows.flatten.mapM BufferCell.toHost with
    | error e => rw [hm] at h; cases h
    | ok mae =>
      rw [hm] at h
      cases h
      rw [hc row (List.mem_of_mem_head? hh)]
      exact .cells hc (all2_mapM (fun _ _ => cell_layout) hm)

theorem cellArg_layout {strict : Bool} {ch : HVal} {fg bg : Int} (h : IsCharArg ch) (h1 : IsColor fg) (h2 : IsColor bg) :
    ∃ v, cellArg strict ch fg bg = .ok v ∧ BufferCell.Layout ⟨some (charNumber ch), some fg, some bg, some 0⟩ v := by
  have hn : BufferCell.new strict ch (.enum fg) (.enum bg) (.enum 0) =
      .ok ⟨some (charNumber ch), some fg, some bg, some 0⟩ := by
    unfold BufferCell.new
    have h0 := asFlag_enum (isFlag_zero strict bufferCellTypes)
    rw [Int.ofNat_zero] at h0
    rw [asChar_arg h, asColor_enum h1, asColor_enum h2, h0]
    rfl
  refine ⟨_, by unfold cellArg; rw [hn]; rfl, cell_layout rfl⟩

theorem call_layout {strict : Bool} {c : HostCall} (h : c.Valid strict) :
    ∃ ps, c.encode strict = .ok (c.meaning.1, ps) ∧ All2 HParam.Layout c.meaning.2 ps := by
  have raw3 : ∀ {f g : Int} {v : HVal}, All2 HParam.Layout [.color f, .color g, .raw v] [.int f, .int g, v] :=
    .cons (.color _) (.cons (.color _) (.cons (.raw _) .nil))
  cases c with
  | get m => exact ⟨[], rfl, .nil⟩
  | write v fg bg =>
    cases fg <;> cases bg
    · exact ⟨_, rfl, .cons (.raw _) .nil⟩
    all_goals exact ⟨_, rfl, raw3⟩
  | writeLine l fg bg =>
    cases fg <;> cases bg
    · cases l
      · exact ⟨_, rfl, .nil⟩
      · exact ⟨_, rfl, .cons (.raw _) .nil⟩
    all_goals cases l <;> exact ⟨_, rfl, raw3⟩
  | writeProgress s p => exact ⟨_, rfl, .cons (.raw _) (.cons (.progress (progress_layout p)) .nil)⟩
  | prompt c m fs => exact ⟨_, rfl, .cons (.raw _) (.cons (.raw _) (.cons (.fields (all2_map field_layout fs)) .nil))⟩
  | promptForCredential c m u t types options =>
    cases types <;> cases options
    · exact ⟨_, rfl, .cons (.raw _) (.cons (.raw _) (.cons (.raw _) (.cons (.raw _) .nil)))⟩
    all_goals exact ⟨_, rfl, .cons (.raw _) (.cons (.raw _) (.cons (.raw _) (.cons (.raw _) (.cons (.credentialTypes _)
      (.cons (.credentialOptions _) .nil)))))⟩
  | promptForChoice c m cs d =>
    exact ⟨_, rfl, .cons (.raw _) (.cons (.raw _) (.cons (.choices (all2_map choice_layout cs)) (.cons (.raw _) .nil)))⟩
  | promptForMultipleChoice c m cs ds =>
    exact ⟨_, rfl, .cons (.raw _) (.cons (.raw _) (.cons (.choices (all2_map choice_layout cs)) (.cons (.raw _) .nil)))⟩
  | setForegroundColor c => exact ⟨_, rfl, .cons (.color _) .nil⟩
  | setBackgroundColor c => exact ⟨_, rfl, .cons (.color _) .nil⟩
  | setCursorPosition x y =>
    exact ⟨_, by simp only [HostCall.encode, coordinates_new h.1 h.2]; rfl, .cons (.coordinates (coordinates_layout _)) .nil⟩
  | setWindowPosition x y =>
    exact ⟨_, by simp only [HostCall.encode, coordinates_new h.1 h.2]; rfl, .cons (.coordinates (coordinates_layout _)) .nil⟩
  | setBufferSize x y => exact ⟨_, by simp only [HostCall.encode, size_new h.1 h.2]; rfl, .cons (.size (size_layout _)) .nil⟩
  | setWindowSize x y => exact ⟨_, by simp only [HostCall.encode, size_new h.1 h.2]; rfl, .cons (.size (size_layout _)) .nil⟩
  | readKey o => exact ⟨_, rfl, .cons (.readKeyOptions _) .nil⟩
  | setBufferCells l t r b ch fg bg =>
    obtain ⟨h1, h2, h3, h4, h5, h6, h7⟩ := h
    obtain ⟨v, hv, hl⟩ := cellArg_layout (strict := strict) h5 h6 h7
    exact ⟨_, by simp only [HostCall.encode, rectArg_eq h1 h2 h3 h4, hv]; rfl,
      .cons (.rectangle (rectangle_layout _)) (.cons (.cell hl) .nil)⟩
  | setBufferContents x y cells =>
    obtain ⟨h1, h2, h3, h4⟩ := h
    obtain ⟨v, hv, _⟩ := array_rt (pack := BufferCell.toHost) (unpack := BufferCell.fromHost strict) h3
      fun row hr c hx => cell_rt (h4 row hr c hx)
    exact ⟨_, by simp only [HostCall.encode, coordinates_new h1 h2, hv]; rfl,
      .cons (.coordinates (coordinates_layout _)) (.cons (cells_layout h3 hv) .nil)⟩
  | getBufferContents l t r b =>
    obtain ⟨h1, h2, h3, h4⟩ := h
    exact ⟨_, by simp only [HostCall.encode, rectArg_eq h1 h2 h3 h4]; rfl, .cons (.rectangle (rectangle_layout _)) .nil⟩
  | scrollBufferContents s x y c ch fg bg =>
    obtain ⟨l, t, r, b⟩ := s
    obtain ⟨l', t', r', b'⟩ := c
    obtain ⟨h1, h2, h3, h4, hx, hy, h1', h2', h3', h4', h5, h6, h7⟩ := h
    obtain ⟨v, hv, hl⟩ := cellArg_layout (strict := strict) h5 h6 h7
    exact ⟨_, by
      simp only [HostCall.encode, rectArg_eq h1 h2 h3 h4, rectArg_eq h1' h2' h3' h4', coordinates_new hx hy, hv]; rfl,
      .cons (.rectangle (rectangle_layout _)) (.cons (.coordinates (coordinates_layout _)) (.cons (.rectangle (rectangle_layout _))
        (.cons (.cell hl) .nil)))⟩
  | _ => exact ⟨_, rfl, .cons (.raw _) .nil⟩

theorem reply_layout {strict : Bool} {r : HostReply} (h : r.Valid strict) :
    ∃ v, r.encode strict = .ok v ∧ r.meaning.2.Layout v := by
  cases r with
  | plain m v => exact ⟨v, rfl, .raw _⟩
  | multipleChoice v => cases v <;> exact ⟨_, rfl, .raw _⟩
  | color m c => exact ⟨_, rfl, .color _⟩
  | coordinates m x y =>
    exact ⟨_, by simp only [HostReply.encode, coordinates_new h.2.1 h.2.2]; rfl, .coordinates (coordinates_layout _)⟩
  | size m x y => exact ⟨_, by simp only [HostReply.encode, size_new h.2.1 h.2.2]; rfl, .size (size_layout _)⟩
  | key ch dn st code =>
    obtain ⟨hc, hs, hn⟩ := h
    have hk : KeyInfo.new strict (.int code) (.char (charNumber ch)) (.enum st) (.bool dn) =
        .ok ⟨some code, some (charNumber ch), some st, some dn⟩ := by
      unfold KeyInfo.new
      rw [asInt_int hn, asFlag_enum hs]; rfl
    refine ⟨_, ?_, .key (key_layout (k := ⟨some code, some (charNumber ch), some st, some dn⟩) rfl)⟩
    simp only [HostReply.encode, asChar_arg hc]
    show (do (← KeyInfo.new strict (.int code) (.char (charNumber ch)) (.enum st) (.bool dn)).toHost) = _
    rw [hk]
    rfl
  | contents cells =>
    obtain ⟨h3, h4⟩ := h
    obtain ⟨v, hv, _⟩ := array_rt (pack := BufferCell.toHost) (unpack := BufferCell.fromHost strict) h3
      fun row hr c hx => cell_rt (h4 row hr c hx)
    exact ⟨v, hv, cells_layout h3 hv⟩

/-! ## Host information -/

theorem defaultData_layout {d : HostDefaultData} (h : d.Valid) : ∃ v, d.toHost = .ok v ∧ d.Layout v := by
  obtain ⟨d0, d1, d2, d3, d4, d5, d6, d7, d8, d9⟩ := d
  obtain ⟨⟨c0, e0, _⟩, ⟨c1, e1, _⟩, ⟨c2, e2, _⟩, ⟨c3, e3, _⟩, ⟨c4, e4, _⟩, ⟨c5, e5, _⟩, ⟨c6, e6, _⟩, ⟨c7, e7, _⟩, ⟨c8, e8, _⟩, c9, e9⟩ := h
  dsimp only at e0 e1 e2 e3 e4 e5 e6 e7 e8 e9
  subst e0 e1 e2 e3 e4 e5 e6 e7 e8 e9
  exact ⟨_, rfl, c0, c1, c2, c3, c4, c5, c6, c7, c8, c9, _, _, _, _, _, _, rfl, coordinates_layout _, coordinates_layout _, size_layout _,
    size_layout _, size_layout _, size_layout _, rfl⟩

theorem hostInfo_layout {h : HostInfo} (hd : ∀ d ∈ h.defaultData, d.Valid) : ∃ v, h.toHost = .ok v ∧ h.Layout v := by
  unfold HostInfo.toHost
  simp only [ofBool_orNull]
  cases hh : h.defaultData with
  | none => exact ⟨_, rfl, [], .inl ⟨hh, rfl⟩, rfl⟩
  | some d =>
    obtain ⟨v, hv, hl⟩ := defaultData_layout (hd d hh)
    dsimp only
    rw [hv]
    exact ⟨_, rfl, _, .inr ⟨d, v, hh, hl, rfl⟩, rfl⟩

/-! ## Pipelines -/

theorem command_layout (c : Command HVal) (peer : Option PSVersion) :
    c.Layout (peer.getD ⟨2, 0, none, none⟩) (c.toRemoting peer).tree := by
  have h3 := ge_two (peer.getD Win7RC) 2
  have h5 := ge_two (peer.getD Win7RC) 3
  have e3 : Pwsh3 = { major := 2, minor := 2 } := rfl
  have e5 : Pwsh5 = { major := 2, minor := 3 } := rfl
  have e0 : (⟨2, 0, none, none⟩ : PSVersion) = Win7RC := rfl
  have ea : RemoteCommand.argTree = fun a => .obj [(txt! "N", .orNull .str a.1), (txt! "V", a.2)] := by
    funext a
    unfold RemoteCommand.argTree
    rw [ofStr_orNull]
    rfl
  unfold Command.Layout RemoteCommand.tree
  rw [e0, ea]
  obtain ⟨t, sc, ls, ps, es, mu, mm, mt, me, mw, mv, md, mi⟩ := c
  cases mu <;> by_cases a3 : (peer.getD Win7RC).AtLeast2 2 <;> by_cases a5 : (peer.getD Win7RC).AtLeast2 3 <;>
    simp [Command.toRemoting, e3, e5, h3, h5, a3, a5, Command.mergePrevious, ResultType.none, ResultType.output, ResultType.error,
      RemoteCommand.optTree, lit, ofBool_orNull]

/-- An empty statement behind a command that is marked. -/
def closing {V : Type} (cs : List (Command V)) : List (List (Command V)) :=
  if (cs.getLast?.map (·.endOfStatement)) = some true then [[]] else []

theorem groupLoop_eq {V : Type} (cs cur : List (Command V)) : PowerShell.groupLoop [] cur cs =
    match statements cs ++ closing cs with
    | [] => [cur]
    | s :: ss => (cur ++ s) :: ss := by
  induction cs generalizing cur with
  | nil => simp [PowerShell.groupLoop, statements, closing]
  | cons c cs ih =>
    have hc : cs ≠ [] → closing (c :: cs) = closing cs := by
      intro h
      unfold closing
      rw [List.getLast?_cons_of_ne_nil h]
    unfold PowerShell.groupLoop statements
    split
    · rw [PowerShell.groupLoop_done, ih]
      cases cs with
      | nil => rename_i h; simp [statements, closing, h]
      | cons d ds =>
        rw [hc (by simp)]
        have : statements (d :: ds) ≠ [] := by
          unfold statements
          split
          · simp
          · split <;> simp
        cases hs : statements (d :: ds) with
        | nil => exact absurd hs this
        | cons s ss => simp
    · rw [ih]
      cases cs with
      | nil => rename_i h; simp [statements, closing, h]
      | cons d ds =>
        rw [hc (by simp)]
        have : statements (d :: ds) ≠ [] := by
          unfold statements
          split
          · simp
          · split <;> simp
        cases hs : statements (d :: ds) with
        | nil => exact absurd hs this
        | cons s ss => simp

theorem groupLoop_statements {V : Type} {cs : List (Command V)} (h : cs ≠ []) :
    PowerShell.groupLoop [] [] cs = statements cs ++ closing cs := by
  rw [groupLoop_eq]
  cases hs : statements cs with
  | nil =>
    cases cs with
    | nil => exact absurd rfl h
    | cons c cs =>
      unfold statements at hs
      split at hs
      · cases hs
      · split at hs <;> cases hs
  | cons s ss => rfl

theorem pipeline_layout {p : PowerShell HVal HostInfo} {peer : Option PSVersion} {m : CreatePipeline HVal HostInfo}
    (h : p.toRemoting peer = .ok m) : p.Layout (peer.getD ⟨2, 0, none, none⟩) m.commandTree := by
  unfold PowerShell.toRemoting at h
  split at h
  · cases h
  · rename_i hne
    cases h
    rw [groupLoop_statements hne]
    refine ⟨_, (statements p.commands ++ closing p.commands).map fun g => g.map fun c => (c.toRemoting peer).tree, rfl, ?_, ?_⟩
    · exact all2_map (fun g => all2_map (fun c => command_layout c peer) g) _
    · unfold CreatePipeline.commandTree
      simp only [ofStr_orNull]
      have e1 : CreatePipeline.cmdsTree (((statements p.commands ++ closing p.commands).map
          (·.map (·.toRemoting peer))).headD []) = .list (((statements p.commands ++ closing p.commands).map
          fun g => g.map fun c => (c.toRemoting peer).tree).headD []) := by
        unfold CreatePipeline.cmdsTree
        cases statements p.commands ++ closing p.commands with
        | nil => rfl
        | cons g gs => simp
      rw [e1]
      change _ = HVal.obj (_ ++ if 1 < (statements p.commands ++ closing p.commands).length then _ else _)
      by_cases hl : 1 < (statements p.commands ++ closing p.commands).length
      · rw [if_pos hl, if_pos (by rw [List.length_map]; exact hl)]
        simp [CreatePipeline.statementTree, CreatePipeline.cmdsTree, lit, Function.comp_def]
      · rw [if_neg hl, if_neg (by rw [List.length_map]; exact hl)]
        simp [lit]

/-! ## Texts -/

theorem plain_node {V : Type} (w : Int) : ((Prim.plainInt w).node : Node V) = .int w ∧ ((Prim.plainInt w).member : Node V) = .enum w := by
  have : (Prim.plainInt w).norm = .int .psInt w ∨ (Prim.plainInt w).norm = .int .psInt64 w := by
    unfold Prim.norm
    dsimp only
    split
    · exact .inl rfl
    · exact .inr rfl
  unfold Prim.node Prim.member
  rcases this with e | e <;> rw [e] <;> exact ⟨rfl, rfl⟩

theorem int_node {V : Type} {p : Prim} {v : Int} (h : (p.node : Node V) = .int v) {n t : PyStr} (hf : p.Form n t) :
    ∃ k : IntKind, n = k.element ∧ Signed v t := by
  cases p with
  | int k w => cases h; exact ⟨k, hf.1, hf.2⟩
  | plainInt w =>
    have hv : w = v := by
      rw [(plain_node w).1] at h
      cases h
      rfl
    subst hv
    obtain ⟨⟨_, _, rfl⟩ | ⟨_, _, rfl⟩, hs⟩ := hf
    · exact ⟨.psInt, rfl, hs⟩
    · exact ⟨.psInt64, rfl, hs⟩
  | str k s => cases k <;> cases h
  | _ => cases h

theorem int_member {V : Type} {p : Prim} {v : Int} (h : (p.member : Node V) = .enum v) {n t : PyStr} (hf : p.Form n t) :
    ∃ k : IntKind, n = k.element ∧ Signed v t := by
  cases p with
  | int k w => cases h; exact ⟨k, hf.1, hf.2⟩
  | plainInt w =>
    have hv : w = v := by
      rw [(plain_node w).2] at h
      cases h
      rfl
    subst hv
    obtain ⟨⟨_, _, rfl⟩ | ⟨_, _, rfl⟩, hs⟩ := hf
    · exact ⟨.psInt, rfl, hs⟩
    · exact ⟨.psInt64, rfl, hs⟩
  | _ => cases h

/-- Where a number, a character or a text can be. -/
theorem node_cases (p : Prim) : (∃ n, (p.node : Node PVal) = .int n) ∨ (∃ n, (p.node : Node PVal) = .char n) ∨
    (∃ s, (p.node : Node PVal) = .str s) ∨ (p.node : Node PVal) = .other := by
  unfold Prim.node
  split
  · exact .inl ⟨_, rfl⟩
  · exact .inr (.inl ⟨_, rfl⟩)
  · exact .inr (.inr (.inl ⟨_, rfl⟩))
  · exact .inr (.inr (.inr rfl))

theorem member_cases (p : Prim) : (∃ n, (p.member : Node PVal) = .enum n) ∨ (p.member : Node PVal) = .other := by
  unfold Prim.member
  split
  · exact .inl ⟨_, rfl⟩
  · exact .inr rfl

theorem look_prim {H : Heap} {v : PVal} {n : Node PVal} (h : H.look v = n)
    (hn : (∃ i, n = .int i) ∨ (∃ c, n = .char c) ∨ ∃ s, n = .str s) : ∃ p, v = .prim p ∧ p.node = n := by
  cases v with
  | prim p => exact ⟨p, rfl, h⟩
  | nil => subst h; rcases hn with ⟨_, e⟩ | ⟨_, e⟩ | ⟨_, e⟩ <;> cases e
  | bool b => subst h; rcases hn with ⟨_, e⟩ | ⟨_, e⟩ | ⟨_, e⟩ <;> cases e
  | ref a =>
    exfalso
    unfold Heap.look at h
    dsimp only at h
    split at h
    · split at h <;> subst h <;> rcases hn with ⟨_, e⟩ | ⟨_, e⟩ | ⟨_, e⟩ <;> cases e
    · rename_i p _
      subst h
      rcases member_cases p with ⟨m, e'⟩ | e' <;> rw [e'] at hn <;> rcases hn with ⟨_, e⟩ | ⟨_, e⟩ | ⟨_, e⟩ <;> cases e
    · rename_i p _
      subst h
      rcases member_cases p with ⟨m, e'⟩ | e' <;> rw [e'] at hn <;> rcases hn with ⟨_, e⟩ | ⟨_, e⟩ | ⟨_, e⟩ <;> cases e
    · subst h; rcases hn with ⟨_, e⟩ | ⟨_, e⟩ | ⟨_, e⟩ <;> cases e
    · subst h; rcases hn with ⟨_, e⟩ | ⟨_, e⟩ | ⟨_, e⟩ <;> cases e
    · subst h; rcases hn with ⟨_, e⟩ | ⟨_, e⟩ | ⟨_, e⟩ <;> cases e

theorem look_ref {H : Heap} {v : PVal} {n : Node PVal} (h : H.look v = n)
    (hn : (∃ i, n = .enum i) ∨ (∃ c, n = .list c) ∨ (∃ s, n = .dict s) ∨ ∃ s, n = .obj s) : ∃ a, v = .ref a := by
  cases v with
  | ref a => exact ⟨a, rfl⟩
  | nil => subst h; rcases hn with ⟨_, e⟩ | ⟨_, e⟩ | ⟨_, e⟩ | ⟨_, e⟩ <;> cases e
  | bool b => subst h; rcases hn with ⟨_, e⟩ | ⟨_, e⟩ | ⟨_, e⟩ | ⟨_, e⟩ <;> cases e
  | prim p =>
    exfalso
    have h : (p.node : Node PVal) = n := h
    subst h
    rcases node_cases p with ⟨_, e'⟩ | ⟨_, e'⟩ | ⟨_, e'⟩ | e' <;> rw [e'] at hn <;>
      rcases hn with ⟨_, e⟩ | ⟨_, e⟩ | ⟨_, e⟩ | ⟨_, e⟩ <;> cases e

theorem look_member {H : Heap} {a : Nat} {n : Int} (h : H.look (.ref a) = .enum n) :
    ∃ p, ((H a).data = .ext p ∨ (H a).data = .enum p) ∧ (p.member : Node PVal) = .enum n := by
  unfold Heap.look at h
  dsimp only at h
  split at h
  · split at h <;> cases h
  · rename_i p hd; exact ⟨p, .inl hd, h⟩
  · rename_i p hd; exact ⟨p, .inr hd, h⟩
  all_goals cases h

theorem member_ne {p : Prim} {n : Node PVal} (h : (p.member : Node PVal) = n)
    (hn : (∃ c, n = .list c) ∨ (∃ s, n = .dict s) ∨ ∃ s, n = .obj s) : False := by
  subst h
  rcases member_cases p with ⟨_, e'⟩ | e' <;> rw [e'] at hn <;> rcases hn with ⟨_, e⟩ | ⟨_, e⟩ | ⟨_, e⟩ <;> cases e

theorem look_items {H : Heap} {a : Nat} {l : List PVal} (h : H.look (.ref a) = .list l) : ∃ k, (H a).data = .list k l := by
  unfold Heap.look at h
  dsimp only at h
  split at h
  · split at h <;> cases h
  · exact absurd h fun e => member_ne e (.inl ⟨_, rfl⟩)
  · exact absurd h fun e => member_ne e (.inl ⟨_, rfl⟩)
  · rename_i k vs hd; cases h; exact ⟨k, hd⟩
  all_goals cases h

theorem look_entries {H : Heap} {a : Nat} {l : List (PVal × PVal)} (h : H.look (.ref a) = .dict l) : (H a).data = .dict l := by
  unfold Heap.look at h
  dsimp only at h
  split at h
  · split at h <;> cases h
  · exact absurd h fun e => member_ne e (.inr (.inl ⟨_, rfl⟩))
  · exact absurd h fun e => member_ne e (.inr (.inl ⟨_, rfl⟩))
  · cases h
  · cases h
  · rename_i d hd; cases h; exact hd

theorem look_props {H : Heap} {a : Nat} {l : List (PyStr × PVal)} (h : H.look (.ref a) = .obj l) :
    (H a).data = .none ∧ (H a).adapted = [] ∧ (H a).extended = l := by
  unfold Heap.look at h
  dsimp only at h
  split at h
  · rename_i hd
    split at h
    · rename_i ha; cases h; exact ⟨hd, ha, rfl⟩
    · cases h
  · exact absurd h fun e => member_ne e (.inr (.inr ⟨_, rfl⟩))
  · exact absurd h fun e => member_ne e (.inr (.inr ⟨_, rfl⟩))
  all_goals cases h

theorem own_nothing {o : PObj} {t : PyStr} (h : OwnForm o t) (hd : ∀ p, o.data ≠ .ext p ∧ o.data ≠ .enum p) : t = [] := by
  rcases h with ⟨p, _, _, h | h, _⟩ | ⟨_, h⟩
  · exact absurd h (hd p).1
  · exact absurd h (hd p).2
  · exact h

/-- A value that is a tree is written as it. -/
theorem tree_text {H : Heap} {val : Nat → PVal} {t : HVal} {v : PVal} (h : IsTree H.look (fun i v => v = val i) t v) :
    ∀ x text, Form H v x text → TreeText H val t x text := by
  refine IsTree.rec (motive_1 := fun t v _ => ∀ x text, Form H v x text → TreeText H val t x text)
    (motive_2 := fun ts vs _ => All2 (fun t v => ∀ x text, Form H v x text → TreeText H val t x text) ts vs)
    ?_ ?_ ?_ ?_ ?_ ?_ ?_ ?_ ?_ ?_ ?_ ?_ h
  · intro v h x text hf
    cases v with
    | nil => cases hf; exact .nil
    | bool b => cases h
    | prim p => rcases node_cases p with ⟨_, e⟩ | ⟨_, e⟩ | ⟨_, e⟩ | e <;> exact absurd (e.symm.trans h) (by simp)
    | ref a =>
      exfalso
      unfold Heap.look at h
      dsimp only at h
      split at h
      · split at h <;> cases h
      · rename_i p _; rcases member_cases p with ⟨_, e⟩ | e <;> exact absurd (e.symm.trans h) (by simp)
      · rename_i p _; rcases member_cases p with ⟨_, e⟩ | e <;> exact absurd (e.symm.trans h) (by simp)
      all_goals cases h
  · intro v b h x text hf
    cases v with
    | nil => cases h
    | bool b' => cases h; cases hf with | true => exact .true | false => exact .false
    | prim p => rcases node_cases p with ⟨_, e⟩ | ⟨_, e⟩ | ⟨_, e⟩ | e <;> exact absurd (e.symm.trans h) (by simp)
    | ref a =>
      exfalso
      unfold Heap.look at h
      dsimp only at h
      split at h
      · split at h <;> cases h
      · rename_i p _; rcases member_cases p with ⟨_, e⟩ | e <;> exact absurd (e.symm.trans h) (by simp)
      · rename_i p _; rcases member_cases p with ⟨_, e⟩ | e <;> exact absurd (e.symm.trans h) (by simp)
      all_goals cases h
  · intro v n h x text hf
    obtain ⟨p, rfl, hp⟩ := look_prim h (.inl ⟨_, rfl⟩)
    cases hf with
    | prim hf => obtain ⟨k, rfl, hs⟩ := int_node hp hf; exact .int hs
  · intro v c h x text hf
    obtain ⟨p, rfl, hp⟩ := look_prim h (.inr (.inl ⟨_, rfl⟩))
    cases hf with
    | prim hf =>
      cases p with
      | char c' => cases hp; obtain ⟨rfl, hs⟩ := hf; exact .char hs
      | plainInt w => rw [(plain_node w).1] at hp; cases hp
      | str k s => cases k <;> cases hp
      | _ => cases hp
  · intro v s h x text hf
    obtain ⟨p, rfl, hp⟩ := look_prim h (.inr (.inr ⟨_, rfl⟩))
    cases hf with
    | prim hf =>
      cases p with
      | str k s' =>
        cases k with
        | string => cases hp; obtain ⟨rfl, u, hu, rfl⟩ := hf; exact .str hu
        | _ => cases hp
      | plainInt w => rw [(plain_node w).1] at hp; cases hp
      | _ => cases hp
  · intro v n h x text hf
    obtain ⟨a, rfl⟩ := look_ref h (.inl ⟨_, rfl⟩)
    obtain ⟨p, hd, hm⟩ := look_member h
    cases hf with
    | @bare _ p' _ n' t' hd' he ha hf =>
      have : p' = p := by
        rcases hd with hd | hd <;> rw [hd'] at hd <;> cases hd
        rfl
      subst this
      obtain ⟨k, rfl, hs⟩ := int_member hm hf
      exact .number hs
    | again hr => exact .again hr
    | @obj _ _ _ _ t1 t2 t3 t4 t5 hr h1 h2 h3 h4 h5 =>
      rcases h1 with ⟨q, n', u, hq, hf, rfl⟩ | ⟨hn, _⟩
      · have : q = p := by
          rcases hd with hd | hd <;> rcases hq with hq | hq <;> rw [hd] at hq <;> cases hq <;> rfl
        subst this
        obtain ⟨k, rfl, hs⟩ := int_member hm hf
        have := TreeText.enum (H := H) (val := val) (k := k) (x := x) (rest := t2 ++ t3 ++ t4 ++ t5) hr hs
        simpa only [List.append_assoc] using this
      · rcases hd with hd | hd
        · exact absurd hd (hn p).1
        · exact absurd hd (hn p).2
  · intro v ts vs h hs ih x text hf
    obtain ⟨a, rfl⟩ := look_ref h (.inr (.inl ⟨_, rfl⟩))
    obtain ⟨k, hd⟩ := look_items h
    have items : ∀ t, ItemForms H vs t → TreeItems H val ts t := by
      clear hs h hd
      induction ih with
      | nil => intro t ht; cases ht; exact .nil
      | cons q _ ih => intro t ht; cases ht with | cons h1 h2 => exact .cons (q _ _ h1) (ih _ h2)
    cases hf with
    | bare hd' => rw [hd] at hd'; cases hd'
    | again hr => exact .again hr
    | @obj _ _ _ _ t1 t2 t3 t4 t5 hr h1 h2 h3 h4 h5 =>
      obtain rfl := own_nothing h1 fun p => by rw [hd]; exact ⟨nofun, nofun⟩
      cases h5 with
      | list hd' ht => rw [hd] at hd'; cases hd'; exact .list hr (items _ ht)
      | queue hd' => rw [hd] at hd'; cases hd'
      | emptied hd' => rw [hd] at hd'; cases hd'
      | dict hd' => rw [hd] at hd'; cases hd'
      | ext hd' => rw [hd] at hd'; cases hd'
      | string hd' => rw [hd] at hd'; rcases hd' with hd' | ⟨_, hd'⟩ <;> cases hd'
  · intro v ts vs h hk hs ih x text hf
    obtain ⟨a, rfl⟩ := look_ref h (.inr (.inr (.inl ⟨_, rfl⟩)))
    have hd := look_entries h
    have entries : ∀ t, EntryForms H vs t → TreeEntries H val ts t := by
      clear hs h hd
      induction ts generalizing vs with
      | nil =>
        cases vs with
        | nil => intro t ht; cases ht; exact .nil
        | cons => cases hk
      | cons e es ih' =>
        cases vs with
        | nil => cases hk
        | cons w ws =>
          obtain ⟨n, u⟩ := e
          obtain ⟨key, w⟩ := w
          intro t ht
          cases ht with
          | cons h1 h2 h3 =>
            cases hk with
            | cons hk1 hk2 =>
              cases ih with
              | cons q1 q2 =>
                obtain ⟨p, rfl, hp⟩ := look_prim hk1 (.inl ⟨_, rfl⟩)
                cases h1 with
                | prim hp' => obtain ⟨k, rfl, hsn⟩ := int_node hp hp'; exact .cons hsn (q1 _ _ h2) (ih' hk2 q2 _ h3)
    cases hf with
    | bare hd' => rw [hd] at hd'; cases hd'
    | again hr => exact .again hr
    | @obj _ _ _ _ t1 t2 t3 t4 t5 hr h1 h2 h3 h4 h5 =>
      obtain rfl := own_nothing h1 fun p => by rw [hd]; exact ⟨nofun, nofun⟩
      cases h5 with
      | dict hd' ht => rw [hd] at hd'; cases hd'; exact .dict hr (entries _ ht)
      | queue hd' => rw [hd] at hd'; cases hd'
      | emptied hd' => rw [hd] at hd'; cases hd'
      | list hd' => rw [hd] at hd'; cases hd'
      | ext hd' => rw [hd] at hd'; cases hd'
      | string hd' => rw [hd] at hd'; rcases hd' with hd' | ⟨_, hd'⟩ <;> cases hd'
  · intro v ts vs h hn hs ih x text hf
    obtain ⟨a, rfl⟩ := look_ref h (.inr (.inr (.inr ⟨_, rfl⟩)))
    obtain ⟨hd, ha, he⟩ := look_props h
    have props : ∀ t, PropForms H vs t → TreeProps H val ts t := by
      clear hs h he
      induction ts generalizing vs with
      | nil =>
        cases vs with
        | nil => intro t ht; cases ht; exact .nil
        | cons => cases hn
      | cons e es ih' =>
        cases vs with
        | nil => cases hn
        | cons w ws =>
          obtain ⟨n, u⟩ := e
          obtain ⟨n', w⟩ := w
          simp only [List.map_cons, List.cons.injEq] at hn
          obtain ⟨rfl, hn⟩ := hn
          intro t ht
          cases ht with
          | cons h1 h2 h3 =>
            cases ih with
            | cons q1 q2 => exact .cons h1 (q1 _ _ h2) (ih' hn q2 _ h3)
    cases hf with
    | bare hd' => rw [hd] at hd'; cases hd'
    | again hr => exact .again hr
    | @obj _ _ _ _ t1 t2 t3 t4 t5 hr h1 h2 h3 h4 h5 =>
      obtain rfl := own_nothing h1 fun p => by rw [hd]; exact ⟨nofun, nofun⟩
      rw [ha] at h3
      rw [he] at h4
      have e3 : t3 = [] := by cases h3 with | none => rfl | some hp => exact absurd rfl hp
      subst e3
      have e4 : ∃ u, TreeProps H val ts u ∧ t4 = if ts = [] then [] else element (txt! "MS") [] u := by
        cases h4 with
        | none =>
          cases ts with
          | nil => exact ⟨[], .nil, rfl⟩
          | cons => cases hn
        | some hp ht =>
          refine ⟨_, props _ ht, ?_⟩
          rw [if_neg]
          rintro rfl
          exact hp (List.map_eq_nil_iff.mp hn.symm)
      obtain ⟨u, hu, rfl⟩ := e4
      cases h5 with
      | string hd' ht =>
        have := TreeText.obj (val := val) (x := x) hr h2 hu ht
        simpa only [List.nil_append, List.append_nil] using this
      | queue hd' => rw [hd] at hd'; cases hd'
      | emptied hd' => rw [hd] at hd'; cases hd'
      | list hd' => rw [hd] at hd'; cases hd'
      | dict hd' => rw [hd] at hd'; cases hd'
      | ext hd' => rw [hd] at hd'; cases hd'
  · intro v i h x text hf
    subst h
    exact .other hf
  · exact .nil
  · intro a b as bs _ _ ih1 ih2
    exact .cons ih1 ih2

theorem tree_null {H : Heap} {val : Nat → PVal} {t : HVal} (h : IsTree H.look (fun i v => v = val i) t .nil) : t.IsNull val := by
  cases h with
  | nil => exact .inl rfl
  | other h => exact .inr ⟨_, rfl, h.symm⟩
  | bool h => cases h
  | int h => cases h
  | char h => cases h
  | str h => cases h
  | enum h => cases h
  | list h => cases h
  | dict h => cases h
  | obj h => cases h

theorem flag_field {H : Heap} {n t : PyStr} {b : Bool} (h : FieldText H (attrib (txt! "N") n) (.flag b) t) : t = flagField n b := by
  cases h <;> rfl

theorem int64_field {H : Heap} {n t : PyStr} {v : Int} (h : FieldText H (attrib (txt! "N") n) (.int64 v) t) :
    NumberField n (txt! "I64") v t := by
  cases h with | int64 h => exact ⟨_, h, rfl⟩

theorem int32_field {H : Heap} {n t : PyStr} {v : Int} (h : FieldText H (attrib (txt! "N") n) (.int32 v) t) :
    NumberField n (txt! "I32") v t := by
  cases h with | int32 h => exact ⟨_, h, rfl⟩

theorem object_field {H : Heap} {val : Nat → PVal} {n t : PyStr} {v : PVal} {u : HVal}
    (ht : IsTree H.look (fun i v => v = val i) u v) (h : FieldText H (attrib (txt! "N") n) (.object v) t) : NamedText H val n u t := by
  cases h with | object h => exact tree_text ht _ _ h

theorem fields_cons {H : Heap} {n t : PyStr} {f : Field} {fs : List (PyStr × Field)} (h : FieldTexts H ((n, f) :: fs) t) :
    ∃ u w, FieldText H (attrib (txt! "N") n) f u ∧ FieldTexts H fs w ∧ t = u ++ w := by
  cases h with | cons h hs => exact ⟨_, _, h, hs, rfl⟩

theorem fields_nil {H : Heap} {t : PyStr} (h : FieldTexts H [] t) : t = [] := by cases h; rfl

theorem apartment_tree (o : Option Nat) : HVal.ofEnum (o.map Int.ofNat) = .orNull (fun n => .enum (Int.ofNat n)) o := by cases o <;> rfl

theorem call_fields {strict : Bool} {H : Heap} {val : Nat → PVal} {ci : Int} {c : HostCall} {m : HostMethod} {ts : List HVal}
    {mi mp : PVal} {t : PyStr} (hv : c.Valid strict) (he : c.encode strict = .ok (m, ts))
    (h1 : IsTree H.look (fun i v => v = val i) (.enum m.value) mi) (h2 : IsTree H.look (fun i v => v = val i) (.list ts) mp)
    (h : FieldTexts H [(txt! "ci", .int64 ci), (txt! "mi", .object mi), (txt! "mp", .object mp)] t) :
    (Content.hostCall ci c).Fields H val t := by
  obtain ⟨ps, he', hl⟩ := call_layout hv
  rw [he] at he'
  cases he'
  obtain ⟨t1, _, f1, k1, rfl⟩ := fields_cons h
  obtain ⟨t2, _, f2, k2, rfl⟩ := fields_cons k1
  obtain ⟨t3, _, f3, k3, rfl⟩ := fields_cons k2
  obtain rfl := fields_nil k3
  exact ⟨_, _, t1, t2, t3, method_number _, hl, int64_field f1, object_field h1 f2, object_field h2 f3, by simp⟩

theorem reply_fields {strict : Bool} {H : Heap} {val : Nat → PVal} {ci : Int} {r : HostReply} {v : HVal}
    {mi mr : PVal} {t : PyStr} (hv : r.Valid strict) (he : r.encode strict = .ok v)
    (h1 : IsTree H.look (fun i v => v = val i) (.enum r.meaning.1.value) mi) (h2 : IsTree H.look (fun i v => v = val i) v mr)
    (h : FieldTexts H ([(txt! "ci", .int64 ci), (txt! "mi", .object mi)] ++ optional (txt! "mr") mr ++ optional (txt! "me") .nil) t) :
    (Content.hostReply ci r).Fields H val t := by
  obtain ⟨v', he', hl⟩ := reply_layout hv
  rw [he] at he'
  cases he'
  have hme : optional (txt! "me") .nil = [] := rfl
  rw [hme, List.append_nil, List.cons_append, List.cons_append, List.nil_append] at h
  obtain ⟨t1, _, f1, k1, rfl⟩ := fields_cons h
  obtain ⟨t2, t3, f2, k2, rfl⟩ := fields_cons k1
  refine ⟨_, _, t1, t2, t3, method_number _, hl, int64_field f1, object_field h1 f2, ?_, by simp⟩
  unfold optional at k2
  split at k2
  · rename_i e
    subst e
    exact .inr ⟨tree_null h2, fields_nil k2⟩
  · obtain ⟨_, _, f3, k3, rfl⟩ := fields_cons k2
    obtain rfl := fields_nil k3
    rw [List.append_nil]
    exact .inl (object_field h2 f3)

theorem content_fields {strict : Bool} {H : Heap} {val : Nat → PVal} {c : Content} {l : Letter} (hv : c.Valid strict)
    (hs : c.SentAs strict H.look val l) {fs : List (PyStr × Field)} (hb : l.body = .fields fs) {t : PyStr} (h : FieldTexts H fs t) :
    c.Fields H val t := by
  cases c with
  | hostCall ci c =>
    obtain ⟨m, ts, mi, mp, he, rfl | rfl, h1, h2⟩ := hs <;> cases hb <;> exact call_fields hv he h1 h2 h
  | hostReply ci r =>
    obtain ⟨v, mi, mr, he, rfl | rfl, h1, h2⟩ := hs <;> cases hb <;> exact reply_fields hv he h1 h2 h
  | pipeline p peer =>
    obtain ⟨m, t, apartment, options, host, command, he, ht, rfl, h1, h2, h3, h4⟩ := hs
    cases hb
    obtain ⟨t', ht', hl⟩ := hostInfo_layout hv.2
    rw [ht] at ht'
    cases ht'
    have hm := pipeline_layout he
    have eqs : m.noInput = p.noInput ∧ m.apartmentState = p.apartmentState ∧ m.remoteStreamOptions = p.remoteStreamOptions ∧
        m.addToHistory = p.addToHistory ∧ m.isNested = p.isNested := by
      unfold PowerShell.toRemoting at he
      rw [if_neg hv.1] at he
      cases he
      exact ⟨rfl, rfl, rfl, rfl, rfl⟩
    obtain ⟨e1, e2, e3, e4, e5⟩ := eqs
    obtain ⟨u1, _, f1, k1, rfl⟩ := fields_cons h
    obtain ⟨u2, _, f2, k2, rfl⟩ := fields_cons k1
    obtain ⟨u3, _, f3, k3, rfl⟩ := fields_cons k2
    obtain ⟨u4, _, f4, k4, rfl⟩ := fields_cons k3
    obtain ⟨u5, _, f5, k5, rfl⟩ := fields_cons k4
    obtain ⟨u6, _, f6, k6, rfl⟩ := fields_cons k5
    obtain ⟨u7, _, f7, k7, rfl⟩ := fields_cons k6
    obtain rfl := fields_nil k7
    rw [e2, apartment_tree] at h1
    rw [e3] at h2
    have g1 := flag_field f1
    have g4 := flag_field f4
    have g7 := flag_field f7
    rw [e1] at g1
    rw [e4] at g4
    rw [e5] at g7
    subst g1 g4 g7
    exact ⟨t, m.commandTree, u2, u3, u5, u6, hl, hm, object_field h1 f2, object_field h2 f3, object_field h3 f5, object_field h4 f6,
      by simp⟩
  | opening min max hi =>
    obtain ⟨t, threads, apartment, host, args, ht, rfl, h1⟩ := hs
    cases hb
    obtain ⟨t', ht', hl⟩ := hostInfo_layout hv
    rw [ht] at ht'
    cases ht'
    obtain ⟨u1, _, f1, k1, rfl⟩ := fields_cons h
    obtain ⟨u2, _, f2, k2, rfl⟩ := fields_cons k1
    obtain ⟨u3, _, f3, k3, rfl⟩ := fields_cons k2
    obtain ⟨u4, _, f4, k4, rfl⟩ := fields_cons k3
    obtain ⟨u5, u6, f5, k5, rfl⟩ := fields_cons k4
    exact ⟨t, u1, u2, u3 ++ u4, u5, u6, hl, int32_field f1, int32_field f2, object_field h1 f5, by simp⟩

theorem content_text {strict : Bool} {H : Heap} {val : Nat → PVal} {c : Content} {l : Letter} (hv : c.Valid strict)
    (hs : c.SentAs strict H.look val l) {t : PyStr} (h : MessageBodyText H l.body t) : ContentText H val c t := by
  have hb : ∃ fs, l.body = .fields fs := by
    cases c with
    | hostCall ci c => obtain ⟨m, ts, mi, mp, he, rfl | rfl, h1, h2⟩ := hs <;> exact ⟨_, rfl⟩
    | hostReply ci r => obtain ⟨v, mi, mr, he, rfl | rfl, h1, h2⟩ := hs <;> exact ⟨_, rfl⟩
    | pipeline p peer => obtain ⟨m, t, apartment, options, host, command, he, ht, rfl, h1, h2, h3, h4⟩ := hs; exact ⟨_, rfl⟩
    | opening min max hi => obtain ⟨t, threads, apartment, host, args, ht, rfl, h1⟩ := hs; exact ⟨_, rfl⟩
  obtain ⟨fs, hb⟩ := hb
  rw [hb] at h
  cases h with
  | fields h1 h2 => exact ⟨_, _, h1, content_fields hv hs hb h2, rfl⟩

end Verif
