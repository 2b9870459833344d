import Verif.Spec.XmlText
import Verif.Proof.Clixml

/-! # Lemmas for C63 and C64: XML texts -/

namespace Verif

theorem xmlChar_iff (c : Nat) : xmlChar c = true ↔ IsXmlChar c := by
  unfold xmlChar IsXmlChar
  simp only [Bool.or_eq_true, decide_eq_true_eq]
  omega

/-! ## References -/

theorem decodeRefs_cons (c : Nat) (s : PyStr) : decodeRefs (c :: s) none =
    if c = 38 then decodeRefs s (some []) else (decodeRefs s none).map (c :: ·) := by rw [decodeRefs]

theorem decodeRefs_ref (c : Nat) (s e : PyStr) : decodeRefs (c :: s) (some e) =
    if c = 59 then
      match entity e with
      | none => .error .parseError
      | some d => (decodeRefs s none).map (d :: ·)
    else decodeRefs s (some (e ++ [c])) := by rw [decodeRefs]; rfl

theorem decodeRefs_append {a : PyStr} {t : PyStr} (h : decodeRefs a none = .ok t) (s : PyStr) :
    decodeRefs (a ++ s) none = (decodeRefs s none).map (t ++ ·) := by
  suffices ∀ a e t, decodeRefs a e = .ok t → decodeRefs (a ++ s) e = (decodeRefs s none).map (t ++ ·) from this a none t h
  clear h a t
  intro a
  induction a with
  | nil =>
    intro e t h
    cases e with
    | none => cases h; cases hs : decodeRefs s none <;> simp [hs, Except.map]
    | some e => cases h
  | cons c a ih =>
    intro e t h
    cases e with
    | none =>
      rw [List.cons_append]
      rw [decodeRefs_cons] at h ⊢
      by_cases hc : c = 38
      · rw [if_pos hc] at h ⊢
        exact ih _ _ h
      · rw [if_neg hc] at h ⊢
        cases h1 : decodeRefs a none with
        | error e => rw [h1] at h; cases h
        | ok r =>
          rw [h1] at h
          cases h
          rw [ih _ _ h1]
          cases decodeRefs s none <;> rfl
    | some e =>
      rw [List.cons_append]
      rw [decodeRefs_ref] at h ⊢
      by_cases hc : c = 59
      · rw [if_pos hc] at h ⊢
        cases he : entity e with
        | none => rw [he] at h; cases h
        | some d =>
          rw [he] at h
          dsimp only at h ⊢
          cases h1 : decodeRefs a none with
          | error e => rw [h1] at h; cases h
          | ok r =>
            rw [h1] at h
            cases h
            rw [ih _ _ h1]
            cases decodeRefs s none <;> rfl
      · rw [if_neg hc] at h ⊢
        exact ih _ _ h

theorem decodeRefs_escText (c : Nat) : decodeRefs (escText c) none = .ok [c] := by
  unfold escText
  split
  · subst_vars; decide +kernel
  · split
    · subst_vars; decide +kernel
    · split
      · subst_vars; decide +kernel
      · rename_i h _ _
        simp [decodeRefs, h, Except.map]

theorem decodeRefs_escAttr (c : Nat) : decodeRefs (escAttr c) none = .ok [c] := by
  unfold escAttr
  split
  · subst_vars; decide +kernel
  · split
    · subst_vars; decide +kernel
    · split
      · subst_vars; decide +kernel
      · split
        · subst_vars; decide +kernel
        · exact decodeRefs_escText c

theorem decodeRefs_flatMap {f : Nat → PyStr} (hf : ∀ c, decodeRefs (f c) none = .ok [c]) (s : PyStr) :
    decodeRefs (s.flatMap f) none = .ok s := by
  induction s with
  | nil => rfl
  | cons c s ih => rw [List.flatMap_cons, decodeRefs_append (hf c), ih]; rfl

/-- The characters of references. -/
def RefChar (d : Nat) : Prop := d ≠ 60 ∧ d ≠ 62 ∧ d ≠ 34 ∧ d ≠ 13 ∧ d ≠ 10 ∧ d ≠ 9 ∧ d ≠ 32 ∧ xmlChar d = true

instance (d : Nat) : Decidable (RefChar d) := by unfold RefChar; infer_instance

theorem mem_escText {c d : Nat} (h : d ∈ escText c) : d ≠ 60 ∧ d ≠ 62 ∧ (d = c ∨ RefChar d) := by
  unfold escText at h
  have key : ∀ l : PyStr, (∀ x ∈ l, RefChar x) → d ∈ l → d ≠ 60 ∧ d ≠ 62 ∧ (d = c ∨ RefChar d) :=
    fun l hl hd => ⟨(hl d hd).1, (hl d hd).2.1, .inr (hl d hd)⟩
  split at h
  · exact key _ (by decide +kernel) h
  · split at h
    · exact key _ (by decide +kernel) h
    · split at h
      · exact key _ (by decide +kernel) h
      · rw [List.mem_singleton] at h
        subst h
        exact ⟨by assumption, by assumption, .inl rfl⟩

theorem mem_escAttr {c d : Nat} (h : d ∈ escAttr c) :
    d ≠ 60 ∧ d ≠ 62 ∧ d ≠ 34 ∧ d ≠ 13 ∧ d ≠ 10 ∧ d ≠ 9 ∧ (d = c ∨ IsXmlChar d) := by
  have wk : RefChar d → d ≠ 60 ∧ d ≠ 62 ∧ d ≠ 34 ∧ d ≠ 13 ∧ d ≠ 10 ∧ d ≠ 9 ∧ (d = c ∨ IsXmlChar d) :=
    fun ⟨h1, h2, h3, h4, h5, h6, _, h7⟩ => ⟨h1, h2, h3, h4, h5, h6, .inr ((xmlChar_iff d).mp h7)⟩
  have key : ∀ l : PyStr, (∀ x ∈ l, RefChar x) → d ∈ l → RefChar d := fun l hl hd => hl d hd
  unfold escAttr at h
  split at h
  · exact wk (key _ (by decide +kernel) h)
  · split at h
    · exact wk (key _ (by decide +kernel) h)
    · split at h
      · exact wk (key _ (by decide +kernel) h)
      · split at h
        · exact wk (key _ (by decide +kernel) h)
        · obtain ⟨h1, h2, h3⟩ := mem_escText h
          rcases h3 with rfl | h3
          · exact ⟨h1, h2, by assumption, by assumption, by assumption, by assumption, .inl rfl⟩
          · exact wk h3

theorem decodeAttr_escAttr (v : PyStr) : decodeAttr (v.flatMap escAttr) = .ok v := by
  unfold decodeAttr
  have h60 : (v.flatMap escAttr).contains 60 = false := by
    rw [Bool.eq_false_iff]
    intro h
    obtain ⟨c, _, h⟩ := List.mem_flatMap.mp (by simpa using h : 60 ∈ v.flatMap escAttr)
    exact (mem_escAttr h).1 rfl
  rw [h60, if_neg (by simp)]
  have : ((v.flatMap escAttr).map fun c => if xmlSpace c then 32 else c) = v.flatMap escAttr := by
    conv => rhs; rw [← List.map_id (v.flatMap escAttr)]
    refine List.map_congr_left fun c hc => ?_
    obtain ⟨d, _, h⟩ := List.mem_flatMap.mp hc
    obtain ⟨_, _, _, h1, h2, h3, _⟩ := mem_escAttr h
    split
    · rename_i hs
      unfold xmlSpace at hs
      simp [h1, h2, h3] at hs
      exact hs.symm
    · rfl
  rw [this, decodeRefs_flatMap decodeRefs_escAttr]

/-! ## Tags -/

/-- A name of the model. -/
def PlainName (n : PyStr) : Prop := n ≠ [] ∧ ∀ c ∈ n, nameChar c = true

theorem tag_name_plain (t : Tag) : PlainName t.name := by
  unfold PlainName
  rcases t with _ | _ | _ | _ | _ | _ | _ | _ | _ | _ | _ | _ | _ | _ | _ | _ | _ | _ | _ | _ | _ | _ | _ | _ | _ | _ | _ | _ | _ | _ | _ | _ | _ | _ | _ | _ | _ | k | _
  all_goals first | decide | (cases k <;> decide)

theorem takeWhile_name {n : PyStr} (hn : ∀ c ∈ n, nameChar c = true) {s : PyStr} (hs : ∀ c, s.head? = some c → nameChar c = false) :
    (n ++ s).takeWhile nameChar = n ∧ (n ++ s).dropWhile nameChar = s := by
  have h : s.takeWhile nameChar = [] ∧ s.dropWhile nameChar = s := by
    cases s with
    | nil => exact ⟨rfl, rfl⟩
    | cons c s => simp [List.takeWhile, List.dropWhile, hs c rfl]
  rw [List.takeWhile_append_of_pos hn, List.dropWhile_append_of_pos hn, h.1, h.2]
  simp

/-- The text of one attribute. -/
def attrText (n v : PyStr) : PyStr := [32] ++ n ++ [61, 34] ++ v.flatMap escAttr ++ [34]

theorem readAttrs_cons {n v : PyStr} (hn : PlainName n) {s : PyStr} {as : Dict PyStr PyStr} {k : Nat}
    (h : readAttrs k s = .ok as) (hd : as.contains n = false) : readAttrs (k + 1) (attrText n v ++ s) = .ok ((n, v) :: as) := by
  unfold readAttrs
  have e : attrText n v ++ s = 32 :: (n ++ (61 :: 34 :: (v.flatMap escAttr ++ 34 :: s))) := by
    unfold attrText; simp
  rw [e]
  obtain ⟨hne, hn⟩ := hn
  obtain ⟨c, n', rfl⟩ := List.exists_cons_of_ne_nil hne
  have hc : xmlSpace c = false := by
    have := hn c List.mem_cons_self
    unfold nameChar at this
    cases h : xmlSpace c with
    | false => rfl
    | true => rw [h] at this; simp at this
  have h34 : ∀ d ∈ v.flatMap escAttr, (fun x => decide (x ≠ 34)) d = true := by
    intro d hd
    obtain ⟨c, _, h⟩ := List.mem_flatMap.mp hd
    simpa using (mem_escAttr h).2.2.1
  rw [if_neg (by simp [hc])]
  rw [if_pos (by simp [xmlSpace])]
  have hdrop : (32 :: (c :: n' ++ (61 :: 34 :: (v.flatMap escAttr ++ 34 :: s)))).dropWhile xmlSpace =
      c :: n' ++ (61 :: 34 :: (v.flatMap escAttr ++ 34 :: s)) := by
    have h32 : xmlSpace 32 = true := by decide
    simp only [List.dropWhile, h32, List.cons_append, hc]
  obtain ⟨h1, h2⟩ := takeWhile_name hn (s := 61 :: 34 :: (v.flatMap escAttr ++ 34 :: s)) (by
    intro c hc; cases hc; decide)
  have h61 : xmlSpace 61 = false := by decide
  have h34' : xmlSpace 34 = false := by decide
  have hd1 : ∀ s, (61 :: s).dropWhile xmlSpace = 61 :: s := fun s => by simp [List.dropWhile, h61]
  have hd2 : ∀ s, (34 :: s).dropWhile xmlSpace = 34 :: s := fun s => by simp [List.dropWhile, h34']
  simp only [hdrop, h1, h2, hd1, List.head?_cons, if_true, List.drop_succ_cons, List.drop_zero, hd2]
  rw [if_neg (by simp)]
  have ht : (v.flatMap escAttr ++ 34 :: s).takeWhile (fun x => decide (x ≠ 34)) = v.flatMap escAttr := by
    rw [List.takeWhile_append_of_pos h34]
    simp [List.takeWhile]
  have hdp : (v.flatMap escAttr ++ 34 :: s).dropWhile (fun x => decide (x ≠ 34)) = 34 :: s := by
    rw [List.dropWhile_append_of_pos h34]
    simp [List.dropWhile]
  rw [ht, hdp, decodeAttr_escAttr]
  simp only [List.drop_succ_cons, List.drop_zero]
  rw [h]
  simp [hd]

theorem readAttrs_nil (k : Nat) {e : PyStr} (he : e = [] ∨ e = [32]) : readAttrs k e = .ok [] := by
  rcases he with rfl | rfl <;> cases k <;> rfl

theorem readAttrs_write {n : PyStr} (hn : PlainName n) (v : Option PyStr) {s : PyStr} {as : Dict PyStr PyStr} {k : Nat}
    (h : readAttrs k s = .ok as) (h' : readAttrs (k + 1) s = .ok as) (hd : as.contains n = false) :
    readAttrs (k + 1) (writeAttr n v ++ s) = .ok ((match v with | none => [] | some v => [(n, v)]) ++ as) := by
  cases v with
  | none => exact h'
  | some v => exact readAttrs_cons hn h hd

theorem readAttrs_writeAttrs (a : Attrs) (k : Nat) {e : PyStr} (he : e = [] ∨ e = [32]) :
    ∃ as, readAttrs (k + 3) (writeAttrs a ++ e) = .ok as ∧ attrsOf as = a := by
  have pR : PlainName (txt! "RefId") := by unfold PlainName; decide
  have pN : PlainName (txt! "N") := by unfold PlainName; decide
  have pS : PlainName (txt! "S") := by unfold PlainName; decide
  obtain ⟨r, n, s⟩ := a
  have h1 := fun k => readAttrs_write pS s (readAttrs_nil k he) (readAttrs_nil (k + 1) he) rfl
  have h2 := fun k => readAttrs_write pN n (h1 k) (h1 (k + 1)) (by cases s <;> rfl)
  have h3 := readAttrs_write pR r (h2 k) (h2 (k + 1)) (by cases n <;> cases s <;> rfl)
  have h4 : writeAttrs ⟨r, n, s⟩ ++ e =
      writeAttr (txt! "RefId") r ++ (writeAttr (txt! "N") n ++ (writeAttr (txt! "S") s ++ e)) := by
    unfold writeAttrs
    rw [List.append_assoc, List.append_assoc]
  rw [h4]
  refine ⟨_, h3, ?_⟩
  · cases r <;> cases n <;> cases s <;> rfl

theorem writeAttrs_head (a : Attrs) : writeAttrs a = [] ∨ ∃ s, writeAttrs a = 32 :: s ∧ 3 ≤ s.length ∧ (writeAttrs a).getLast? = some 34 := by
  obtain ⟨r, n, s⟩ := a
  unfold writeAttrs
  cases r <;> cases n <;> cases s
  · left; rfl
  all_goals
    right
    refine ⟨_, rfl, ?_, ?_⟩
    · simp
    · simp [writeAttr, List.getLast?_cons, List.getLast?_append]

theorem readStartTag_write (t : Tag) (a : Attrs) {e : PyStr} (he : e = [] ∨ e = [32]) :
    readStartTag (t.name ++ writeAttrs a ++ e) = .ok (t.name, a) := by
  obtain ⟨hne, hn⟩ := tag_name_plain t
  have hh : ∀ c, (writeAttrs a ++ e).head? = some c → nameChar c = false := by
    intro c hc
    rcases writeAttrs_head a with h | ⟨s, h, _⟩
    · rw [h] at hc
      rcases he with rfl | rfl
      · cases hc
      · cases hc; decide
    · rw [h] at hc; cases hc; decide
  obtain ⟨h1, h2⟩ := takeWhile_name hn hh
  unfold readStartTag
  rw [List.append_assoc, h1, h2, if_neg hne]
  have hk : ∃ as, readAttrs (t.name ++ (writeAttrs a ++ e)).length (writeAttrs a ++ e) = .ok as ∧ attrsOf as = a := by
    rcases writeAttrs_head a with h | ⟨s, h, hl, _⟩
    · obtain ⟨as, h3, h4⟩ := readAttrs_writeAttrs a 0 he
      rw [h, List.nil_append] at h3 ⊢
      rw [readAttrs_nil _ he] at h3 ⊢
      exact ⟨as, h3, h4⟩
    · have : ∃ k, (t.name ++ (writeAttrs a ++ e)).length = k + 3 := by
        rw [h]
        refine ⟨(t.name ++ (32 :: s ++ e)).length - 3, ?_⟩
        simp only [List.length_append, List.length_cons]
        omega
      obtain ⟨k, hk⟩ := this
      rw [hk]
      exact readAttrs_writeAttrs a k he
  obtain ⟨as, h3, h4⟩ := hk
  rw [h3]
  dsimp only
  rw [h4]

theorem name_head (t : Tag) (s : PyStr) : (t.name ++ s).head? ≠ some 47 := by
  obtain ⟨hne, hn⟩ := tag_name_plain t
  obtain ⟨c, n, h⟩ := List.exists_cons_of_ne_nil hne
  rw [h] at hn ⊢
  have := hn c List.mem_cons_self
  rintro ⟨rfl⟩
  exact absurd this (by decide)

theorem readTag_start (t : Tag) (a : Attrs) : readTag (t.name ++ writeAttrs a) = .ok (.start t.name a) := by
  unfold readTag
  rw [if_neg (name_head t _), if_neg]
  · have := readStartTag_write t a (e := []) (.inl rfl)
    rw [List.append_nil] at this
    rw [this]
    rfl
  · obtain ⟨hne, hn⟩ := tag_name_plain t
    rcases writeAttrs_head a with h | ⟨s, h, _, hl⟩
    · rw [h, List.append_nil]
      intro h47
      have := hn 47 (List.mem_of_getLast? h47)
      exact absurd this (by decide)
    · rw [List.getLast?_append, hl]
      simp

theorem readTag_empty (t : Tag) (a : Attrs) : readTag (t.name ++ writeAttrs a ++ [32, 47]) = .ok (.empty t.name a) := by
  have e : t.name ++ writeAttrs a ++ [32, 47] = (t.name ++ writeAttrs a ++ [32]) ++ [47] := by simp
  unfold readTag
  rw [if_neg (by rw [List.append_assoc]; exact name_head t _), e, if_pos (by simp), List.dropLast_concat,
    readStartTag_write t a (.inr rfl)]
  rfl

theorem readTag_stop (t : Tag) : readTag (47 :: t.name) = .ok (.stop t.name) := by
  obtain ⟨hne, hn⟩ := tag_name_plain t
  have h := takeWhile_name hn (s := []) (by simp)
  rw [List.append_nil] at h
  unfold readTag
  rw [if_pos (by simp), List.drop_succ_cons, List.drop_zero, h.1, h.2, if_pos ⟨hne, rfl⟩]

theorem tagOf_name {t : Tag} (h : t ≠ .other) : tagOf t.name = t := by
  rcases t with _ | _ | _ | _ | _ | _ | _ | _ | _ | _ | _ | _ | _ | _ | _ | _ | _ | _ | _ | _ | _ | _ | _ | _ | _ | _ | _ | _ | _ | _ | _ | _ | _ | _ | _ | _ | _ | k | _
  all_goals first | exact absurd rfl h | decide +kernel | (cases k <;> decide +kernel)

/-! ## Scanning -/

theorem scan_text (s : PyStr) (hs : ∀ c ∈ s, c ≠ 60) (b : PyStr) (out : List Piece) :
    s.foldl Scan.step { mode := .text, buf := b, out := out } = { mode := .text, buf := b ++ s, out := out } := by
  induction s generalizing b with
  | nil => simp
  | cons c s ih =>
    rw [List.foldl_cons]
    have : Scan.step { mode := .text, buf := b, out := out } c = { mode := .text, buf := b ++ [c], out := out } := by
      unfold Scan.step
      rw [if_neg (hs c List.mem_cons_self)]
    rw [this, ih (fun d hd => hs d (List.mem_cons_of_mem _ hd))]
    simp

theorem scan_tag (s : PyStr) (hs : ∀ c ∈ s, c ≠ 62 ∧ c ≠ 34 ∧ c ≠ 39) (b : PyStr) (out : List Piece) :
    s.foldl Scan.step { mode := .tag, buf := b, out := out } = { mode := .tag, buf := b ++ s, out := out } := by
  induction s generalizing b with
  | nil => simp
  | cons c s ih =>
    rw [List.foldl_cons]
    obtain ⟨h1, h2, h3⟩ := hs c List.mem_cons_self
    have : Scan.step { mode := .tag, buf := b, out := out } c = { mode := .tag, buf := b ++ [c], out := out } := by
      unfold Scan.step
      dsimp only
      rw [if_neg h1, if_neg (by omega)]
    rw [this, ih (fun d hd => hs d (List.mem_cons_of_mem _ hd))]
    simp

theorem scan_quote (s : PyStr) (hs : ∀ c ∈ s, c ≠ 34) (b : PyStr) (out : List Piece) :
    s.foldl Scan.step { mode := .quote 34, buf := b, out := out } = { mode := .quote 34, buf := b ++ s, out := out } := by
  induction s generalizing b with
  | nil => simp
  | cons c s ih =>
    rw [List.foldl_cons]
    have : Scan.step { mode := .quote 34, buf := b, out := out } c = { mode := .quote 34, buf := b ++ [c], out := out } := by
      unfold Scan.step
      dsimp only
      rw [if_neg (hs c List.mem_cons_self)]
    rw [this, ih (fun d hd => hs d (List.mem_cons_of_mem _ hd))]
    simp

theorem plainName_scan {n : PyStr} (hn : PlainName n) : ∀ c ∈ n, c ≠ 62 ∧ c ≠ 34 ∧ c ≠ 39 := by
  intro c hc
  have := hn.2 c hc
  refine ⟨?_, ?_, ?_⟩ <;> (rintro rfl; exact absurd this (by decide))

theorem scan_attr {n : PyStr} (hn : PlainName n) (v : Option PyStr) (b : PyStr) (out : List Piece) :
    (writeAttr n v).foldl Scan.step { mode := .tag, buf := b, out := out } =
      { mode := .tag, buf := b ++ writeAttr n v, out := out } := by
  cases v with
  | none => simp [writeAttr]
  | some v =>
    have e : writeAttr n (some v) = (32 :: n ++ [61]) ++ (34 :: (v.flatMap escAttr ++ [34])) := by
      unfold writeAttr; simp
    rw [e, List.foldl_append, scan_tag]
    · rw [List.foldl_cons]
      have h1 : Scan.step { mode := .tag, buf := b ++ (32 :: n ++ [61]), out := out } 34 =
          { mode := .quote 34, buf := b ++ (32 :: n ++ [61]) ++ [34], out := out } := by
        unfold Scan.step; rfl
      rw [h1, List.foldl_append, scan_quote]
      · unfold Scan.step
        simp
      · intro c hc
        obtain ⟨d, _, h⟩ := List.mem_flatMap.mp hc
        exact (mem_escAttr h).2.2.1
    · intro c hc
      rw [List.mem_append, List.mem_cons, List.mem_singleton] at hc
      rcases hc with (rfl | hc) | rfl
      · decide
      · exact plainName_scan hn c hc
      · decide

theorem scan_attrs (a : Attrs) (b : PyStr) (out : List Piece) :
    (writeAttrs a).foldl Scan.step { mode := .tag, buf := b, out := out } =
      { mode := .tag, buf := b ++ writeAttrs a, out := out } := by
  unfold writeAttrs
  rw [List.foldl_append, List.foldl_append, scan_attr (by unfold PlainName; decide), scan_attr (by unfold PlainName; decide),
    scan_attr (by unfold PlainName; decide)]
  simp

mutual
/-- The pieces of an element behind a text. -/
def xmlPieces (b : PyStr) : Xml → List Piece
  | .node t a x k =>
    if x = [] ∧ k = [] then [.text b, .tag (t.name ++ writeAttrs a ++ [32, 47])]
    else [.text b, .tag (t.name ++ writeAttrs a)] ++ allPieces (x.flatMap escText) k ++ [.tag (47 :: t.name)]
/-- The pieces of some elements behind a text, with the text behind the last one. -/
def allPieces (b : PyStr) : List Xml → List Piece
  | [] => [.text b]
  | x :: xs => xmlPieces b x ++ allPieces [] xs
end

theorem scan_open (t : Tag) (a : Attrs) (b : PyStr) (out : List Piece) :
    ([60] ++ t.name ++ writeAttrs a).foldl Scan.step { mode := .text, buf := b, out := out } =
      { mode := .tag, buf := t.name ++ writeAttrs a, out := out ++ [.text b] } := by
  rw [List.foldl_append, List.foldl_append]
  have : [60].foldl Scan.step { mode := .text, buf := b, out := out } = { mode := .tag, buf := [], out := out ++ [.text b] } := by
    simp [Scan.step]
  rw [this, scan_tag _ (plainName_scan (tag_name_plain t)), scan_attrs]
  simp

mutual
theorem scan_xml : ∀ (x : Xml) (b : PyStr) (out : List Piece),
    (writeXml x).foldl Scan.step { mode := .text, buf := b, out := out } =
      { mode := .text, buf := [], out := out ++ xmlPieces b x }
  | .node t a x k, b, out => by
    unfold writeXml xmlPieces
    rw [List.foldl_append, scan_open]
    by_cases h : x = [] ∧ k = []
    · rw [if_pos h, if_pos h]
      simp [Scan.step]
    · rw [if_neg h, if_neg h]
      have e : [62] ++ x.flatMap escText ++ writeAll k ++ [60, 47] ++ t.name ++ [62] =
          [62] ++ (x.flatMap escText ++ ((writeAll k ++ [60]) ++ ((47 :: t.name) ++ [62]))) := by simp
      rw [e, List.foldl_append]
      have h62 : ∀ (b : PyStr) out, [62].foldl Scan.step { mode := .tag, buf := b, out := out } =
          { mode := .text, buf := [], out := out ++ [.tag b] } := by intros; simp [Scan.step]
      rw [h62, List.foldl_append, scan_text, List.foldl_append, List.nil_append, scan_all k, List.foldl_append, scan_tag, h62]
      · simp
      · intro c hc
        rcases List.mem_cons.mp hc with rfl | hc
        · decide
        · exact plainName_scan (tag_name_plain t) c hc
      · intro c hc
        obtain ⟨d, _, h⟩ := List.mem_flatMap.mp hc
        exact (mem_escText h).1
theorem scan_all : ∀ (k : List Xml) (b : PyStr) (out : List Piece),
    (writeAll k ++ [60]).foldl Scan.step { mode := .text, buf := b, out := out } =
      { mode := .tag, buf := [], out := out ++ allPieces b k }
  | [], b, out => by
    unfold writeAll allPieces
    simp [Scan.step]
  | x :: xs, b, out => by
    unfold writeAll allPieces
    rw [List.append_assoc, List.foldl_append, scan_xml x, scan_all xs]
    simp
end

/-! ## Building -/

theorem steps_cons (p : Piece) (ps : List Piece) (s : Tree) : Tree.steps (p :: ps) s =
    match s.step p with
    | .error e => .error e
    | .ok s => Tree.steps ps s := by rw [Tree.steps]; rfl

theorem steps_append (ps qs : List Piece) (s : Tree) : Tree.steps (ps ++ qs) s =
    match Tree.steps ps s with
    | .error e => .error e
    | .ok s => Tree.steps qs s := by
  induction ps generalizing s with
  | nil => rfl
  | cons p ps ih =>
    rw [List.cons_append, steps_cons, steps_cons]
    cases s.step p with
    | error e => rfl
    | ok s => exact ih s

theorem cdEnd_of {b : PyStr} (h : 62 ∉ b) : cdEnd b = false := by
  induction b with
  | nil => rfl
  | cons c s ih =>
    have h3 : ¬ (c :: s).take 3 = [93, 93, 62] := by
      intro e
      exact h (List.mem_of_mem_take (e ▸ (by simp : 62 ∈ [93, 93, 62])))
    rw [cdEnd, ih fun hs => h (List.mem_cons_of_mem _ hs), decide_eq_false h3]
    rfl

theorem escText_gt (s : PyStr) : 62 ∉ s.flatMap escText := by
  intro h
  obtain ⟨c, _, hc⟩ := List.mem_flatMap.mp h
  exact (mem_escText hc).2.1 rfl

theorem step_text {b t : PyStr} (hb : decodeRefs b none = .ok t) (h62 : 62 ∉ b) (f : XmlFrame) (fs : List XmlFrame) (r : Option Xml)
    (hf : f.kids = [] ∨ t = []) :
    Tree.step { stack := f :: fs, root := r } (.text b) = .ok { stack := { f with text := f.text ++ t } :: fs, root := r } := by
  unfold Tree.step
  simp only [hb, cdEnd_of h62, Bool.false_eq_true, if_false]
  rcases hf with h | rfl
  · simp [h]
  · simp

mutual
theorem steps_xml : ∀ (x : Xml), x.Clean → ∀ (b t : PyStr), decodeRefs b none = .ok t → 62 ∉ b → ∀ (f : XmlFrame) (fs : List XmlFrame),
    f.kids = [] ∨ t = [] →
    Tree.steps (xmlPieces b x) { stack := f :: fs } = .ok { stack := { f with text := f.text ++ t, kids := f.kids ++ [x] } :: fs }
  | .node tg a x k, hc, b, t, hb, h62, f, fs, hf => by
    have ⟨ht, ha, hx, hk⟩ : tg ≠ .other ∧ (∀ v, v = a.refId ∨ v = a.name ∨ v = a.stream → ∀ s, v = some s → XmlOk s) ∧
        XmlLine x ∧ ∀ y ∈ k, y.Clean := by
      cases hc with | node h1 h2 h3 h4 => exact ⟨h1, h2, h3, h4⟩
    unfold xmlPieces
    by_cases h : x = [] ∧ k = []
    · rw [if_pos h]
      obtain ⟨rfl, rfl⟩ := h
      simp only [Tree.steps, step_text hb h62 f fs none hf]
      simp only [Tree.step, readTag_empty, Tree.close, tagOf_name ht]
      simp
    · rw [if_neg h, List.append_assoc, steps_append]
      simp only [Tree.steps, step_text hb h62 f fs none hf]
      simp only [Tree.step, readTag_start]
      simp only [Option.isSome_none, Bool.false_eq_true, if_false]
      rw [steps_append, steps_all k hk _ _ (decodeRefs_flatMap decodeRefs_escText x) (escText_gt x) _ _ (.inl rfl)]
      simp only [Tree.steps, Tree.step, readTag_stop, Tree.close, tagOf_name ht]
      simp
theorem steps_all : ∀ (k : List Xml), (∀ x ∈ k, x.Clean) → ∀ (b t : PyStr), decodeRefs b none = .ok t → 62 ∉ b →
    ∀ (f : XmlFrame) (fs : List XmlFrame), f.kids = [] ∨ t = [] →
    Tree.steps (allPieces b k) { stack := f :: fs } = .ok { stack := { f with text := f.text ++ t, kids := f.kids ++ k } :: fs }
  | [], _, b, t, hb, h62, f, fs, hf => by
    unfold allPieces
    simp only [Tree.steps, step_text hb h62 f fs none hf]
    simp
  | x :: xs, hc, b, t, hb, h62, f, fs, hf => by
    unfold allPieces
    rw [steps_append, steps_xml x (hc x List.mem_cons_self) b t hb h62 f fs hf]
    dsimp only
    rw [steps_all xs (fun y hy => hc y (List.mem_cons_of_mem _ hy)) [] [] rfl (by simp) _ _ (.inr rfl)]
    simp
end

/-! ## Characters -/

theorem normEol_of {s : PyStr} (h : ∀ c ∈ s, c ≠ 13) : normEol s = s := by
  induction s with
  | nil => rfl
  | cons c s ih =>
    have hc := h c List.mem_cons_self
    have ih := ih fun d hd => h d (List.mem_cons_of_mem _ hd)
    cases s with
    | nil => unfold normEol; rw [if_neg hc]
    | cons d s => unfold normEol; rw [if_neg hc, ih]

/-- A character that is read as it is. -/
def SafeChar (c : Nat) : Prop := IsXmlChar c ∧ c ≠ 13

theorem safe_name {n : PyStr} (hn : ∀ c ∈ n, xmlChar c = true ∧ c ≠ 13) : ∀ c ∈ n, SafeChar c :=
  fun c hc => ⟨(xmlChar_iff c).mp (hn c hc).1, (hn c hc).2⟩

theorem safe_tag (t : Tag) : ∀ c ∈ t.name, SafeChar c := by
  refine safe_name ?_
  rcases t with _ | _ | _ | _ | _ | _ | _ | _ | _ | _ | _ | _ | _ | _ | _ | _ | _ | _ | _ | _ | _ | _ | _ | _ | _ | _ | _ | _ | _ | _ | _ | _ | _ | _ | _ | _ | _ | k | _
  all_goals first | decide | (cases k <;> decide)

theorem safe_escText {s : PyStr} (hs : XmlLine s) : ∀ c ∈ s.flatMap escText, SafeChar c := by
  intro c hc
  obtain ⟨d, hd, h⟩ := List.mem_flatMap.mp hc
  obtain ⟨_, _, rfl | h⟩ := mem_escText h
  · exact hs _ hd
  · obtain ⟨_, _, _, h1, _, _, _, h2⟩ := h
    exact ⟨(xmlChar_iff c).mp h2, h1⟩

theorem safe_attr {n : PyStr} (hn : ∀ c ∈ n, SafeChar c) {v : Option PyStr} (hv : ∀ s, v = some s → XmlOk s) :
    ∀ c ∈ writeAttr n v, SafeChar c := by
  cases v with
  | none => intro c hc; cases hc
  | some v =>
    intro c hc
    unfold writeAttr at hc
    simp only [List.mem_append] at hc
    rcases hc with (((hc | hc) | hc) | hc) | hc
    · exact safe_name (by decide) c hc
    · exact hn c hc
    · exact safe_name (by decide) c hc
    · obtain ⟨d, hd, h⟩ := List.mem_flatMap.mp hc
      obtain ⟨_, _, _, h1, _, _, rfl | h⟩ := mem_escAttr h
      · exact ⟨hv v rfl _ hd, h1⟩
      · exact ⟨h, h1⟩
    · exact safe_name (by decide) c hc

theorem safe_attrs {a : Attrs}
    (ha : ∀ v, v = a.refId ∨ v = a.name ∨ v = a.stream → ∀ s, v = some s → XmlOk s) : ∀ c ∈ writeAttrs a, SafeChar c := by
  intro c hc
  unfold writeAttrs at hc
  rw [List.mem_append, List.mem_append] at hc
  rcases hc with (hc | hc) | hc
  · exact safe_attr (safe_name (by decide)) (ha _ (.inl rfl)) c hc
  · exact safe_attr (safe_name (by decide)) (ha _ (.inr (.inl rfl))) c hc
  · exact safe_attr (safe_name (by decide)) (ha _ (.inr (.inr rfl))) c hc

mutual
theorem safe_xml : ∀ (x : Xml), x.Clean → ∀ c ∈ writeXml x, SafeChar c
  | .node tg a x k, hc, c, hm => by
    have ⟨ht, ha, hx, hk⟩ : tg ≠ .other ∧ (∀ v, v = a.refId ∨ v = a.name ∨ v = a.stream → ∀ s, v = some s → XmlOk s) ∧
        XmlLine x ∧ ∀ y ∈ k, y.Clean := by
      cases hc with | node h1 h2 h3 h4 => exact ⟨h1, h2, h3, h4⟩
    unfold writeXml at hm
    simp only [List.mem_append] at hm
    rcases hm with ((hm | hm) | hm) | hm
    · exact safe_name (by decide) c hm
    · exact safe_tag tg c hm
    · exact safe_attrs ha c hm
    · split at hm
      · exact safe_name (n := [32, 47, 62]) (by decide) c hm
      · simp only [List.mem_append] at hm
        rcases hm with ((((hm | hm) | hm) | hm) | hm) | hm
        · exact safe_name (by decide) c hm
        · exact safe_escText hx c hm
        · exact safe_all k hk c hm
        · exact safe_name (by decide) c hm
        · exact safe_tag tg c hm
        · exact safe_name (by decide) c hm
theorem safe_all : ∀ (k : List Xml), (∀ x ∈ k, x.Clean) → ∀ c ∈ writeAll k, SafeChar c
  | [], _, c, hm => by unfold writeAll at hm; cases hm
  | x :: xs, hc, c, hm => by
    unfold writeAll at hm
    rcases List.mem_append.mp hm with hm | hm
    · exact safe_xml x (hc x List.mem_cons_self) c hm
    · exact safe_all xs (fun y hy => hc y (List.mem_cons_of_mem _ hy)) c hm
end

/-! ## The whole document -/

/-- The text is the start tag of the root. -/
structure RootTag (op : PyStr) : Prop where
  safe : ∀ c ∈ op, SafeChar c
  scan : ∃ o, op.foldl Scan.step {} = { mode := .text, buf := [], out := [.text [], .tag o] } ∧
    Tree.steps [.text [], .tag o] {} = .ok { stack := [{ name := txt! "Objs", attrs := {} }] }

theorem rootTag_plain : RootTag (txt! "<Objs>") where
  safe := safe_name (by decide)
  scan := ⟨txt! "Objs", by decide +kernel, rfl⟩

/-- The children of the root, directly. -/
theorem parseXml_eq (t : PyStr) : parseXml t =
    if t.any isSurrogate then .error .unicodeError
    else if ¬ t.all xmlChar then .error .parseError
    else match pieces (normEol t) with
      | none => .error .parseError
      | some ps =>
        match Tree.steps ps {} with
        | .error e => .error e
        | .ok s =>
          match s.stack, s.root with
          | [], some x => .ok x.kids
          | _, _ => .error .parseError := by
  unfold parseXml parseRoot
  by_cases h1 : t.any isSurrogate = true
  · simp only [h1, if_true]
  · by_cases h2 : ¬ t.all xmlChar = true
    · simp only [h1, h2, if_true, if_false, Bool.false_eq_true, not_false_eq_true]
    · rw [if_neg h1, if_neg h2, if_neg h1, if_neg h2]
      cases pieces (normEol t) with
      | none => rfl
      | some ps =>
        dsimp only
        cases Tree.steps ps {} with
        | error e => rfl
        | ok s =>
          obtain ⟨st, r⟩ := s
          cases st <;> cases r <;> rfl

theorem parse_clean {op : PyStr} (ho : RootTag op) {xs : List Xml} (h : ∀ x ∈ xs, x.Clean) :
    parseXml (op ++ writeAll xs ++ (txt! "</Objs>")) = .ok xs := by
  have hsafe : ∀ c ∈ op ++ writeAll xs ++ (txt! "</Objs>"), SafeChar c := by
    intro c hc
    simp only [List.mem_append] at hc
    rcases hc with (hc | hc) | hc
    · exact ho.safe c hc
    · exact safe_all xs h c hc
    · exact safe_name (by decide) c hc
  rw [parseXml_eq]
  rw [if_neg, if_neg, normEol_of fun c hc => (hsafe c hc).2]
  · obtain ⟨o, h1, h3⟩ := ho.scan
    have hp : pieces (op ++ writeAll xs ++ (txt! "</Objs>")) =
        some ([.text [], .tag o] ++ allPieces [] xs ++ [.tag (txt! "/Objs"), .text []]) := by
      unfold pieces
      have e : op ++ writeAll xs ++ (txt! "</Objs>") = op ++ ((writeAll xs ++ [60]) ++ txt! "/Objs>") := by
        simp
      rw [e, List.foldl_append, h1, List.foldl_append, scan_all]
      have h2 : ∀ out, (txt! "/Objs>").foldl Scan.step { mode := .tag, buf := [], out := out } =
          { mode := .text, buf := [], out := out ++ [.tag (txt! "/Objs")] } := by
        intro out
        simp [Scan.step]
      rw [h2]
      simp
    rw [hp]
    dsimp only
    rw [List.append_assoc, steps_append, h3]
    dsimp only
    rw [steps_append, steps_all xs h [] [] rfl (by simp) _ _ (.inl rfl)]
    rfl
  · have : ∀ c ∈ op ++ writeAll xs ++ (txt! "</Objs>"), xmlChar c = true :=
      fun c hc => (xmlChar_iff c).mpr (hsafe c hc).1
    exact not_not_intro (List.all_eq_true.mpr this)
  · intro hs
    obtain ⟨c, hc, hs⟩ := List.any_eq_true.mp hs
    have := (hsafe c hc).1
    unfold IsXmlChar at this
    unfold isSurrogate at hs
    simp only [decide_eq_true_eq] at hs
    omega

/-- A clean element as the root of a text is read back. -/
theorem parseRoot_clean {x : Xml} (h : x.Clean) : parseRoot (writeXml x) = .ok x := by
  have hsafe := safe_xml x h
  unfold parseRoot
  rw [if_neg, if_neg, normEol_of fun c hc => (hsafe c hc).2]
  · have hp : pieces (writeXml x) = some (xmlPieces [] x ++ [.text []]) := by
      unfold pieces
      have := scan_xml x [] []
      simp only [List.nil_append] at this
      rw [show ({} : Scan) = { mode := .text, buf := [], out := [] } from rfl, this]
      rfl
    rw [hp]
    dsimp only
    rw [steps_append]
    have : Tree.steps (xmlPieces [] x) {} = .ok { root := some x } := by
      obtain ⟨tg, a, x, k⟩ := x
      have ⟨ht, ha, hx, hk⟩ : tg ≠ .other ∧ (∀ v, v = a.refId ∨ v = a.name ∨ v = a.stream → ∀ s, v = some s → XmlOk s) ∧
          XmlLine x ∧ ∀ y ∈ k, y.Clean := by
        cases h with | node h1 h2 h3 h4 => exact ⟨h1, h2, h3, h4⟩
      unfold xmlPieces
      by_cases h : x = [] ∧ k = []
      · rw [if_pos h]
        obtain ⟨rfl, rfl⟩ := h
        simp only [Tree.steps, Tree.step, readTag_empty, Tree.close, tagOf_name ht]
        simp
      · rw [if_neg h, List.append_assoc, steps_append]
        simp only [Tree.steps, Tree.step, readTag_start, List.all_nil, if_true, Option.isSome_none, Bool.false_eq_true, if_false]
        rw [steps_append, steps_all k hk _ _ (decodeRefs_flatMap decodeRefs_escText x) (escText_gt x) _ _ (.inl rfl)]
        simp only [Tree.steps, Tree.step, readTag_stop, Tree.close, tagOf_name ht]
        simp
    rw [this]
    rfl
  · exact not_not_intro (List.all_eq_true.mpr fun c hc => (xmlChar_iff c).mpr (hsafe c hc).1)
  · intro hs
    obtain ⟨c, hc, hs⟩ := List.any_eq_true.mp hs
    have := (hsafe c hc).1
    unfold IsXmlChar at this
    unfold isSurrogate at hs
    simp only [decide_eq_true_eq] at hs
    omega

theorem elementTree_faithful {xs : List Xml} (h : ∀ x ∈ xs, x.Clean) : elementTree.Faithful xs :=
  parse_clean rootTag_plain h

end Verif
