import Verif.Proof.XmlText
import Verif.Proof.SerializerPaths
import Verif.Props.StringEsc
import Verif.Props.Duration
import Verif.Proof.DateTime
import Verif.Proof.Crypto
import Verif.Proof.Guid
import Verif.Proof.Decimals

/-! # Lemmas for C63 and C64: the texts of documents -/

namespace Verif

/-- Printable ASCII. -/
def AsciiLine (s : PyStr) : Prop := ∀ c ∈ s, 32 ≤ c ∧ c ≤ 126

theorem AsciiLine.xml {s : PyStr} (h : AsciiLine s) : XmlLine s := fun c hc => by
  have := h c hc
  unfold IsXmlChar
  omega

theorem AsciiLine.append {s t : PyStr} (hs : AsciiLine s) (ht : AsciiLine t) : AsciiLine (s ++ t) := fun c hc => by
  rcases List.mem_append.mp hc with h | h
  · exact hs c h
  · exact ht c h

theorem AsciiLine.cons {c : Nat} {s : PyStr} (hc : 32 ≤ c ∧ c ≤ 126) (hs : AsciiLine s) : AsciiLine (c :: s) := fun d hd => by
  rcases List.mem_cons.mp hd with rfl | h
  · exact hc
  · exact hs d h

theorem asciiLine_nil : AsciiLine [] := fun c hc => by cases hc

theorem asciiLine_natStr (n : Nat) : AsciiLine (natStr n) := fun c hc => by
  have := natStr_ascii n c hc; omega

theorem asciiLine_intStr (v : Int) : AsciiLine (intStr v) := by
  cases v with
  | ofNat n => exact asciiLine_natStr n
  | negSucc n => exact .cons (by decide) (asciiLine_natStr _)

theorem asciiLine_pad (w n : Nat) : AsciiLine (padDigits w n) := fun c hc => by
  have := padDigits_ascii w n c hc; omega

theorem asciiLine_sub {s t : PyStr} (h : ∀ c ∈ s, c ∈ t) (ht : AsciiLine t) : AsciiLine s := fun c hc => ht c (h c hc)

theorem asciiLine_fraction (v : DateFields) : AsciiLine (fractionText v) := by
  unfold fractionText
  split
  · refine .cons (by decide) (.append (asciiLine_pad _ _) ?_)
    split
    · exact asciiLine_natStr _
    · exact asciiLine_nil
  · exact asciiLine_nil

theorem asciiLine_offset (o : Int) : AsciiLine (offsetText o) := by
  unfold offsetText
  refine .cons (by split <;> decide) (.append (.append (asciiLine_pad _ _) (asciiLine_pad _ _)) ?_)
  split
  · exact asciiLine_nil
  · exact asciiLine_pad _ _

theorem asciiLine_zone (o : Option Int) : AsciiLine (zoneText o) := by
  unfold zoneText
  split
  · exact asciiLine_nil
  · split
    · unfold AsciiLine; decide
    · exact .append (asciiLine_sub (fun c => List.mem_of_mem_take) (asciiLine_offset _))
        (.cons (by decide) (asciiLine_sub (fun c => List.mem_of_mem_drop) (asciiLine_offset _)))

theorem asciiLine_count (n u : Nat) (h : 32 ≤ u ∧ u ≤ 126) : AsciiLine (countText n u) := by
  unfold countText
  split
  · exact asciiLine_nil
  · exact .append (asciiLine_natStr n) (.cons h asciiLine_nil)

theorem asciiLine_seconds (n : Nat) : AsciiLine (zfill1 (rstripDotZero (fixed7 n))) := by
  have h : AsciiLine (rstripDotZero (fixed7 n)) := by
    refine asciiLine_sub (t := fixed7 n) (fun c hc => ?_) (.append (asciiLine_natStr _) (.cons (by decide) (asciiLine_pad _ _)))
    unfold rstripDotZero at hc
    have := List.mem_reverse.mp hc
    exact List.mem_reverse.mp ((List.dropWhile_sublist _).subset this)
  unfold zfill1
  split
  · unfold AsciiLine; decide
  · exact h

theorem asciiLine_ticks (n : Nat) : AsciiLine (ticksText n) := by
  unfold ticksText
  refine .cons (by decide) (.append (asciiLine_count _ _ (by decide)) ?_)
  split
  · unfold timeText
    refine .cons (by decide) (.append (.append (asciiLine_count _ _ (by decide)) (asciiLine_count _ _ (by decide))) ?_)
    split
    · exact .append (asciiLine_seconds _) (.cons (by decide) asciiLine_nil)
    · exact asciiLine_nil
  · exact asciiLine_nil

theorem asciiLine_duration (d : Duration) : AsciiLine (serializeDuration d) := by
  unfold serializeDuration
  dsimp only
  split
  · exact .cons (by decide) (asciiLine_ticks _)
  · exact asciiLine_ticks _

theorem asciiLine_dots (ps : List PyStr) (h : ∀ p ∈ ps, AsciiLine p) : AsciiLine (PSVersion.joinDots ps) := by
  fun_induction PSVersion.joinDots ps with
  | case1 => exact asciiLine_nil
  | case2 p => exact h p (by simp)
  | case3 p q ps ih =>
    exact .append (h p (by simp)) (.cons (by decide) (ih fun r hr => h r (List.mem_cons_of_mem _ hr)))

theorem asciiLine_version (v : PSVersion) : AsciiLine v.str := by
  unfold PSVersion.str
  refine asciiLine_dots _ fun p hp => ?_
  obtain ⟨i, _, rfl⟩ := List.mem_map.mp hp
  exact asciiLine_intStr i

theorem asciiLine_guid (n : Nat) : AsciiLine (guidStr n) := by
  have h : AsciiLine (hexRow 32 n) := by
    generalize 32 = w
    induction w generalizing n with
    | zero => exact asciiLine_nil
    | succ w ih =>
      refine (ih _).append (.cons ?_ asciiLine_nil)
      unfold hexLower
      have : n % 16 < 16 := Nat.mod_lt _ (by omega)
      split <;> omega
  have hd : ∀ k, AsciiLine ((hexRow 32 n).drop k) := fun k => asciiLine_sub (fun _ => List.mem_of_mem_drop) h
  have ht : ∀ k j, AsciiLine (((hexRow 32 n).drop k).take j) := fun k j => asciiLine_sub (fun _ => List.mem_of_mem_take) (hd k)
  have h45 : ∀ s, AsciiLine s → AsciiLine (45 :: s) := fun s => .cons (by omega)
  unfold guidStr
  have h0 := ht 0 8
  rw [List.drop_zero] at h0
  have := (((h0.append (h45 _ (ht 8 4))).append (h45 _ (ht 12 4))).append (h45 _ (ht 16 4))).append (h45 _ (hd 20))
  exact this

theorem numChar_line {s : PyStr} (h : ∀ c ∈ s, NumChar c) : AsciiLine s := fun c hc => by
  have := h c hc
  unfold NumChar at this
  omega

theorem asciiLine_decimal (d : PyDecimal) : AsciiLine d.text := by
  refine numChar_line ?_
  unfold PyDecimal.text
  refine upper_num ?_
  cases d with
  | finite neg coeff exp => exact signText_num (decimalDigits_parts coeff exp).num
  | infinity neg => cases neg <;> (unfold PyDecimal.str NumChar signText; decide)
  | nan neg sg p =>
    refine signText_num ?_
    intro c hc
    rcases List.mem_append.mp hc with hc | hc
    · have h : ∀ c ∈ (if sg then txt! "sNaN" else txt! "NaN"), NumChar c := by cases sg <;> (unfold NumChar; decide)
      exact h c (by assumption)
    · split at hc
      · cases hc
      · exact (natStr_allDigits p).num c hc

theorem asciiLine_float {x : PyFloat} (h : x.Ok) : AsciiLine x.text := by
  refine numChar_line ?_
  unfold PyFloat.text
  refine upper_num ?_
  cases x with
  | finite neg u => exact signText_num (unitsText_parts h).scan.2.1
  | infinity neg => cases neg <;> (unfold PyFloat.str NumChar signText; decide)
  | nan => unfold PyFloat.str NumChar; decide

theorem asciiLine_b64 (b : Bytes) : AsciiLine (b64encode b) := fun c hc => by
  have := b64_text b c hc; omega

theorem xmlLine_escaped {s : PyStr} (h : Escapable s) : XmlLine (serializeString s) := fun c hc => by
  refine ⟨(C49_exact s h.1).mpr h.2 c hc, ?_⟩
  rintro rfl
  rcases serialize_chars h.1 13 hc with h | ⟨_, h⟩
  · omega
  · exact absurd h (by decide)

theorem XmlLine.append {s t : PyStr} (hs : XmlLine s) (ht : XmlLine t) : XmlLine (s ++ t) := fun c hc => by
  rcases List.mem_append.mp hc with h | h
  · exact hs c h
  · exact ht c h

theorem xmlLine_date (E : TextEnv) (d : DateFields) (h : XmlLine (E.year4 d.year)) : XmlLine (serializeDateTime E.year4 d) := by
  unfold serializeDateTime
  simp only [List.append_assoc, List.cons_append]
  refine h.append (AsciiLine.xml ?_)
  refine .cons (by decide) (.append (asciiLine_pad _ _) (.cons (by decide) (.append (asciiLine_pad _ _) (.cons (by decide)
    (.append (asciiLine_pad _ _) (.cons (by decide) (.append (asciiLine_pad _ _) (.cons (by decide) (.append (asciiLine_pad _ _)
    (.append (asciiLine_fraction _) (asciiLine_zone _)))))))))))

theorem clean_noAttrs {A : PyStr → Prop} : ∀ v, v = ({} : Attrs).refId ∨ v = ({} : Attrs).name ∨ v = ({} : Attrs).stream →
    ∀ s, v = some s → A s := by
  rintro v (rfl | rfl | rfl) s h <;> cases h

theorem XmlLine.ok {s : PyStr} (h : XmlLine s) : XmlOk s := fun c hc => (h c hc).1

theorem clean_refId {A : PyStr → Prop} (hA : ∀ s, AsciiLine s → A s) (n : Nat) : ∀ v, v = ({ refId := some (natStr n) } : Attrs).refId ∨ v = ({ refId := some (natStr n) } : Attrs).name ∨
    v = ({ refId := some (natStr n) } : Attrs).stream → ∀ s, v = some s → A s := by
  rintro v (rfl | rfl | rfl) s h <;> cases h
  exact hA _ (asciiLine_natStr n)

theorem clean_leaf {A T : PyStr → Prop} {t : Tag} (ht : t ≠ .other) {s : PyStr} (hs : T s) : Xml.Texts A T (.node t {} s []) :=
  .node ht clean_noAttrs hs (fun y hy => by cases hy)

theorem clean_setName {A T : PyStr → Prop} {x : Xml} (h : x.Texts A T) {n : PyStr} (hn : A n) : (x.setName n).Texts A T := by
  cases h with
  | node ht ha hx hk =>
    refine .node ht ?_ hx hk
    rintro v (rfl | rfl | rfl) s h
    · exact ha _ (.inl rfl) s h
    · cases h; exact hn
    · exact ha _ (.inr (.inr rfl)) s h

theorem clean_setStream {A T : PyStr → Prop} {x : Xml} (h : x.Texts A T) {n : PyStr} (hn : A n) : (x.setStream n).Texts A T := by
  cases h with
  | node ht ha hx hk =>
    refine .node ht ?_ hx hk
    rintro v (rfl | rfl | rfl) s h
    · exact ha _ (.inl rfl) s h
    · exact ha _ (.inr (.inl rfl)) s h
    · cases h; exact hn

theorem xmlLine_optInt (v : Option Int) : XmlLine (optIntStr v) := by
  cases v with
  | none => exact AsciiLine.xml (by unfold AsciiLine optIntStr; decide)
  | some v => exact (asciiLine_intStr v).xml

theorem escapable_ascii {s : PyStr} (h : AsciiLine s) : Escapable s := by
  refine ⟨fun c hc => ?_, ?_, fun hc => ?_, fun hc => ?_⟩
  · have := h c hc; omega
  · rintro ⟨c, hc, _⟩; have := h c hc; omega
  · have := h _ hc; omega
  · have := h _ hc; omega

theorem clean_progress {r : Progress} (h1 : Escapable r.activity) (h2 : Escapable r.status)
    (h3 : ∀ t, r.operation = some t → Escapable t) : ∀ x ∈ progressKids r, x.Clean := by
  intro x hx
  unfold progressKids at hx
  simp only [List.mem_cons, List.not_mem_nil, or_false] at hx
  rcases hx with rfl | rfl | rfl | rfl | rfl | rfl | rfl | rfl
  · exact clean_leaf (by decide) (xmlLine_escaped h1)
  · exact clean_leaf (by decide) (xmlLine_optInt _)
  · cases h : r.operation with
    | none => exact clean_leaf (by decide) asciiLine_nil.xml
    | some t => exact clean_leaf (by decide) (xmlLine_escaped (h3 t h))
  · exact clean_leaf (by decide) (xmlLine_optInt _)
  · exact clean_leaf (by decide) (xmlLine_optInt _)
  · refine clean_leaf (by decide) (xmlLine_escaped (escapable_ascii ?_))
    unfold AsciiLine
    split <;> decide
  · exact clean_leaf (by decide) (xmlLine_optInt _)
  · exact clean_leaf (by decide) (xmlLine_escaped h2)

theorem clean_prim (E : TextEnv) {p : Prim} (h : p.XmlOk E) : (primXml E p).Clean := by
  unfold primXml
  cases p with
  | int k v => exact clean_leaf (by simp [writePrim]) (asciiLine_intStr v).xml
  | plainInt v => exact clean_leaf (by simp [writePrim]) (asciiLine_intStr v).xml
  | char c => exact clean_leaf (by simp [writePrim]) (asciiLine_intStr c).xml
  | str k s => exact clean_leaf (by cases k <;> simp [writePrim, StrKind.tag]) (xmlLine_escaped h)
  | bytes b => exact clean_leaf (by simp [writePrim]) (asciiLine_b64 b).xml
  | date d => exact clean_leaf (by simp [writePrim]) (xmlLine_date E d h)
  | duration d => exact clean_leaf (by simp [writePrim]) (asciiLine_duration d).xml
  | version v => exact clean_leaf (by simp [writePrim]) (asciiLine_version v).xml
  | guid n => exact clean_leaf (by simp [writePrim]) (asciiLine_guid n).xml
  | decimal d => exact clean_leaf (by simp [writePrim]) (asciiLine_decimal d).xml
  | float k x => exact clean_leaf (by cases k <;> simp [writePrim, FloatKind.tag]) (asciiLine_float h).xml
  | secure t => exact clean_leaf (by simp [writePrim]) h
  | progress r =>
    exact .node (by simp [writePrim]) clean_noAttrs asciiLine_nil.xml (clean_progress h.1 h.2.1 h.2.2)

/-! ## Graphs -/

variable {A T : PyStr → Prop}

/-- Whatever `f` gives for a value has texts of some kinds. -/
def Cleans (A T : PyStr → Prop) (f : PVal → SState → Except Err (Xml × SState)) (v : PVal) : Prop :=
  ∀ s x s', f v s = .ok (x, s') → x.Texts A T

theorem clean_types (hA : ∀ s, AsciiLine s → A s) (hT : ∀ s, AsciiLine s → T s) {types : List PyStr} (h : ∀ t ∈ types, T t) (s : SState) : ∀ x ∈ (serTypes types s).1, x.Texts A T := by
  unfold serTypes
  split
  · intro x hx; cases hx
  · split
    · intro x hx
      rw [List.mem_singleton] at hx
      subst hx
      exact .node (by simp) (clean_refId hA _) (hT _ asciiLine_nil) (fun y hy => by cases hy)
    · intro x hx
      rw [List.mem_singleton] at hx
      subst hx
      refine .node (by simp) (clean_refId hA _) (hT _ asciiLine_nil) fun y hy => ?_
      obtain ⟨t, ht, rfl⟩ := List.mem_map.mp hy
      exact clean_leaf (by simp) (h t ht)

theorem clean_props {f : PVal → SState → Except Err (Xml × SState)} (ps : List (PyStr × PVal))
    (hf : ∀ v ∈ ps.map Prod.snd, Cleans A T f v) (hn : ∀ q ∈ ps, A (serializeString q.1)) :
    ∀ s xs s', serProps f ps s = .ok (xs, s') → ∀ x ∈ xs, x.Texts A T := by
  induction ps with
  | nil => intro s xs s' h x hx; cases h; cases hx
  | cons q ps ih =>
    obtain ⟨n, v⟩ := q
    intro s xs s' h
    unfold serProps at h
    split at h
    · cases h
    · rename_i x s1 h1
      split at h
      · cases h
      · rename_i ys s2 h2
        cases h
        intro y hy
        rcases List.mem_cons.mp hy with rfl | hy
        · exact clean_setName (hf v (by simp) _ _ _ h1) (hn _ List.mem_cons_self)
        · exact ih (fun v hv => hf v (by simp only [List.map_cons, List.mem_cons]; exact .inr hv))
            (fun q hq => hn q (List.mem_cons_of_mem _ hq)) _ _ _ h2 y hy

theorem clean_group (hT : ∀ s, AsciiLine s → T s) {f : PVal → SState → Except Err (Xml × SState)} {tag : Tag} (ht : tag ≠ .other) (ps : List (PyStr × PVal))
    (hf : ∀ v ∈ ps.map Prod.snd, Cleans A T f v) (hn : ∀ q ∈ ps, A (serializeString q.1))
    {s : SState} {xs : List Xml} {s' : SState} (h : serGroup f tag ps s = .ok (xs, s')) : ∀ x ∈ xs, x.Texts A T := by
  unfold serGroup at h
  split at h
  · cases h; intro x hx; cases hx
  · split at h
    · cases h
    · rename_i ys s1 h1
      cases h
      intro x hx
      rw [List.mem_singleton] at hx
      subst hx
      exact .node ht clean_noAttrs (hT _ asciiLine_nil) (clean_props ps hf hn _ _ _ h1)

theorem clean_items {f : PVal → SState → Except Err (Xml × SState)} (vs : List PVal) (hf : ∀ v ∈ vs, Cleans A T f v) :
    ∀ s xs s', serItems f vs s = .ok (xs, s') → ∀ x ∈ xs, x.Texts A T := by
  induction vs with
  | nil => intro s xs s' h x hx; cases h; cases hx
  | cons v vs ih =>
    intro s xs s' h
    unfold serItems at h
    split at h
    · cases h
    · rename_i x s1 h1
      split at h
      · cases h
      · rename_i ys s2 h2
        cases h
        intro y hy
        rcases List.mem_cons.mp hy with rfl | hy
        · exact hf v (by simp) _ _ _ h1
        · exact ih (fun v hv => hf v (List.mem_cons_of_mem _ hv)) _ _ _ h2 y hy

theorem clean_entries (hA : ∀ s, AsciiLine s → A s) (hT : ∀ s, AsciiLine s → T s) {f : PVal → SState → Except Err (Xml × SState)} (es : List (PVal × PVal))
    (hf : ∀ e ∈ es, Cleans A T f e.1 ∧ Cleans A T f e.2) :
    ∀ s xs s', serEntries f es s = .ok (xs, s') → ∀ x ∈ xs, x.Texts A T := by
  induction es with
  | nil => intro s xs s' h x hx; cases h; cases hx
  | cons e es ih =>
    obtain ⟨k, v⟩ := e
    intro s xs s' h
    unfold serEntries at h
    split at h
    · cases h
    · rename_i xk s1 h1
      split at h
      · cases h
      · rename_i xv s2 h2
        split at h
        · cases h
        · rename_i ys s3 h3
          cases h
          intro y hy
          rcases List.mem_cons.mp hy with rfl | hy
          · refine .node (by simp) clean_noAttrs (hT _ asciiLine_nil) fun z hz => ?_
            obtain ⟨c1, c2⟩ := hf (k, v) List.mem_cons_self
            simp only [List.mem_cons, List.not_mem_nil, or_false] at hz
            rcases hz with rfl | rfl
            · exact clean_setName (c1 _ _ _ h1) (hA _ (by unfold AsciiLine; decide))
            · exact clean_setName (c2 _ _ _ h2) (hA _ (by unfold AsciiLine; decide))
          · exact ih (fun e he => hf e (List.mem_cons_of_mem _ he)) _ _ _ h3 y hy

theorem clean_string {t : Option PyStr} (h : ∀ s, t = some s → T s) : ∀ x ∈ serString t, x.Texts A T := by
  unfold serString
  split
  · intro x hx; cases hx
  · split
    · intro x hx; cases hx
    · intro x hx
      rw [List.mem_singleton] at hx
      subst hx
      exact clean_leaf (by simp) (h _ rfl)

theorem clean_content (hA : ∀ s, AsciiLine s → A s) (hT : ∀ s, AsciiLine s → T s) {f : PVal → SState → Except Err (Xml × SState)} (a : Nat) (o : PObj)
    (hf : ∀ v ∈ o.values, Cleans A T f v) (hs : ∀ t, o.toStr = some t → T t)
    {s : SState} {xs : List Xml} {s' : SState} (h : serContent f a o s = .ok (xs, s')) : ∀ x ∈ xs, x.Texts A T := by
  have one : ∀ {t : Tag} {ys : List Xml}, t ≠ .other → (∀ y ∈ ys, y.Texts A T) → ∀ x ∈ [Xml.node t {} [] ys], x.Texts A T := by
    intro t ys ht hy x hx
    rw [List.mem_singleton] at hx
    subst hx
    exact .node ht clean_noAttrs (hT _ asciiLine_nil) hy
  unfold serContent at h
  split at h
  · rename_i k items hd
    split at h
    · cases h
    · rename_i ys s1 h1
      cases h
      refine one (by cases k <;> simp [ListKind.tag]) (clean_items items (fun v hv => hf v ?_) _ _ _ h1)
      unfold PObj.values; rw [hd]; simp [hv]
  · rename_i items hd
    split at h
    · cases h
    · rename_i ys s1 h1
      cases h
      refine one (by simp) (clean_items _ (fun v hv => hf v ?_) _ _ _ h1)
      unfold PObj.values; rw [hd]
      split at hv
      · cases hv
      · simp [hv]
  · rename_i es hd
    split at h
    · cases h
    · rename_i ys s1 h1
      cases h
      refine one (by simp) (clean_entries hA hT es (fun e he => ⟨hf _ ?_, hf _ ?_⟩) _ _ _ h1)
      · unfold PObj.values; rw [hd]
        simp only [List.mem_append]
        exact .inr (.inl (List.mem_map_of_mem he))
      · unfold PObj.values; rw [hd]
        simp only [List.mem_append]
        exact .inr (.inr (List.mem_map_of_mem he))
  · cases h; intro x hx; cases hx
  · cases h; exact clean_string hs
  · cases h; exact clean_string hs

/-- The texts that are written for an object are of some kinds. -/
structure PObj.Writes (E : TextEnv) (A T : PyStr → Prop) (o : PObj) : Prop where
  vals : ∀ p, PVal.prim p ∈ o.values → (primXml E p).Texts A T
  own : ∀ p, o.data = .ext p ∨ o.data = .enum p → (primXml E p).Texts A T
  names : ∀ q ∈ o.adapted ++ o.extended, A (serializeString q.1)
  types : ∀ t ∈ o.types, T t
  string : ∀ t, o.toStr = some t → T t

theorem ser_cleans (hA : ∀ s, AsciiLine s → A s) (hT : ∀ s, AsciiLine s → T s) (E : TextEnv) (H : Heap) (roots : List PVal)
    (ok : ∀ a, Reach H roots a → (H a).Writes E A T) :
    ∀ n v, (∀ p, v = .prim p → (primXml E p).Texts A T) → (∀ a, v = .ref a → Reach H roots a) → Cleans A T (ser E H n) v := by
  intro n
  induction n with
  | zero => intro v _ _ s x s' h; cases h
  | succ n ih =>
    intro v hv hr s x s' h
    cases v with
    | nil => cases h; exact clean_leaf (by simp) (hT _ asciiLine_nil)
    | bool b => cases h; exact clean_leaf (by simp) (hT _ (by unfold AsciiLine; cases b <;> decide))
    | prim p => cases h; exact hv p rfl
    | ref a =>
      have hra := hr a rfl
      have o := ok a hra
      have hval : ∀ v ∈ (H a).values, Cleans A T (ser E H n) v := fun v hv =>
        ih v (fun p e => o.vals p (e ▸ hv)) fun b e => .step hra (e ▸ hv)
      change serObj E (ser E H n) a (H a) s = .ok (x, s') at h
      unfold serObj at h
      split at h
      · rename_i p hp
        cases h
        refine o.own p ?_
        unfold bareExt at hp
        split at hp
        · rename_i hd
          split at hp
          · cases hp; exact .inl hd
          · cases hp
        · cases hp
      · split at h
        · cases h
          exact .node (by simp) (clean_refId hA _) (hT _ asciiLine_nil) (fun y hy => by cases hy)
        · unfold serBody at h
          split at h
          · cases h
          · rename_i ps s1 h1
            split at h
            · cases h
            · rename_i ms s2 h2
              split at h
              · cases h
              · rename_i c s3 h3
                cases h
                refine .node (by simp) (clean_refId hA _) (hT _ asciiLine_nil) fun y hy => ?_
                simp only [List.mem_append] at hy
                have subA : ∀ v ∈ (H a).adapted.map Prod.snd, Cleans A T (ser E H n) v := fun v hv => hval v (by
                  unfold PObj.values; simp only [List.mem_append]; exact .inl (.inl hv))
                have subE : ∀ v ∈ (H a).extended.map Prod.snd, Cleans A T (ser E H n) v := fun v hv => hval v (by
                  unfold PObj.values; simp only [List.mem_append]; exact .inl (.inr hv))
                rcases hy with (((hy | hy) | hy) | hy) | hy
                · unfold serSub at hy
                  split at hy
                  · rename_i p hd
                    rw [List.mem_singleton] at hy; subst hy
                    exact o.own p (.inl hd)
                  · rename_i p hd
                    rw [List.mem_singleton] at hy; subst hy
                    exact o.own p (.inr hd)
                  · cases hy
                · refine clean_types hA hT (fun t ht => ?_) _ y hy
                  unfold writtenTypes at ht
                  split at ht
                  · cases ht
                  · exact o.types t ht
                · exact clean_group hT (by simp) _ subA (fun q hq => o.names q (List.mem_append.mpr (.inl hq))) h1 y hy
                · exact clean_group hT (by simp) _ subE (fun q hq => o.names q (List.mem_append.mpr (.inr hq))) h2 y hy
                · exact clean_content hA hT a (H a) hval o.string h3 y hy

theorem serDoc_texts (hA : ∀ s, AsciiLine s → A s) (hT : ∀ s, AsciiLine s → T s) (E : TextEnv) (H : Heap) (n : Nat) (vs : List (PVal × Option ClixmlStream))
    (hv : ∀ p, PVal.prim p ∈ vs.map Prod.fst → (primXml E p).Texts A T)
    (ok : ∀ a, Reach H (vs.map Prod.fst) a → (H a).Writes E A T) {s : SState} {xs : List Xml} {s' : SState}
    (h : serDoc E H n vs s = .ok (xs, s')) : ∀ x ∈ xs, x.Texts A T := by
  suffices ∀ ws : List (PVal × Option ClixmlStream), (∀ w ∈ ws, w ∈ vs) → ∀ s xs s', serDoc E H n ws s = .ok (xs, s') →
      ∀ x ∈ xs, x.Texts A T from this vs (fun _ h => h) s xs s' h
  intro ws
  induction ws with
  | nil => intro _ s xs s' h x hx; cases h; cases hx
  | cons w ws ih =>
    obtain ⟨v, st⟩ := w
    intro hws s xs s' h
    unfold serDoc at h
    split at h
    · cases h
    · rename_i x s1 h1
      split at h
      · cases h
      · rename_i ys s2 h2
        cases h
        have hm : v ∈ vs.map Prod.fst := List.mem_map.mpr ⟨_, hws _ List.mem_cons_self, rfl⟩
        intro y hy
        rcases List.mem_cons.mp hy with rfl | hy
        · have c := ser_cleans hA hT E H _ ok n v (fun p e => hv p (e ▸ hm)) (fun a e => .root (e ▸ hm)) _ _ _ h1
          cases st with
          | none => exact c
          | some st =>
            refine clean_setStream c (hA _ ?_)
            unfold AsciiLine
            cases st <;> decide
        · exact ih (fun w hw => hws w (List.mem_cons_of_mem _ hw)) _ _ _ h2 y hy

/-- All elements of a document have names the code knows. -/
theorem serDoc_known (E : TextEnv) (H : Heap) (n : Nat) (vs : List (PVal × Option ClixmlStream)) {s : SState} {xs : List Xml}
    {s' : SState} (h : serDoc E H n vs s = .ok (xs, s')) : ∀ x ∈ xs, x.Texts (fun _ => True) fun _ => True := by
  have hp : ∀ p, (primXml E p).Texts (fun _ => True) fun _ => True := by
    intro p
    unfold primXml
    cases p with
    | progress r =>
      refine .node (by simp [writePrim]) (fun _ _ _ _ => trivial) trivial fun x hx => ?_
      have hx : x ∈ progressKids r := hx
      unfold progressKids at hx
      simp only [List.mem_cons, List.not_mem_nil, or_false] at hx
      rcases hx with rfl | rfl | rfl | rfl | rfl | rfl | rfl | rfl
      case inr.inr.inl => cases r.operation <;> exact clean_leaf (by decide) trivial
      all_goals exact clean_leaf (by decide) trivial
    | str k s => exact clean_leaf (by cases k <;> simp [writePrim, StrKind.tag]) trivial
    | float k s => exact clean_leaf (by cases k <;> simp [writePrim, FloatKind.tag]) trivial
    | _ => exact clean_leaf (by simp [writePrim]) trivial
  exact serDoc_texts (fun _ _ => trivial) (fun _ _ => trivial) E H n vs (fun _ _ => hp _)
    (fun _ _ => ⟨fun _ _ => hp _, fun _ _ => hp _, fun _ _ => trivial, fun _ _ => trivial, fun _ _ => trivial⟩) h

theorem serDoc_cleans (E : TextEnv) (H : Heap) (n : Nat) (vs : List (PVal × Option ClixmlStream))
    (ok : GraphXmlOk E H (vs.map Prod.fst)) {s : SState} {xs : List Xml} {s' : SState}
    (h : serDoc E H n vs s = .ok (xs, s')) : ∀ x ∈ xs, x.Clean :=
  serDoc_texts (fun _ h => h.xml.ok) (fun _ h => h.xml) E H n vs (fun _ hp => clean_prim E (ok.vals _ hp))
    (fun a ha => ⟨fun _ hp => clean_prim E ((ok.objs a ha).vals _ hp), fun p hp => clean_prim E ((ok.objs a ha).own p hp),
      fun q hq => (xmlLine_escaped ((ok.objs a ha).names q hq)).ok, (ok.objs a ha).types, (ok.objs a ha).string⟩) h

/-! ## Line ends -/

theorem lineEnds_eq (s : PyStr) : normEol s = lineEnds s := by
  fun_induction lineEnds s with
  | case1 => rfl
  | case2 s ih =>
    unfold normEol
    simp only [↓reduceIte]
    rw [← ih]
    cases s with
    | nil => rfl
    | cons d s => simp [normEol]
  | case3 s hs ih =>
    cases s with
    | nil => rfl
    | cons d s =>
      unfold normEol
      rw [if_pos rfl, if_neg (fun e => hs _ (by rw [e])), ih]
  | case4 c s h1 h2 ih =>
    have hc : c ≠ 13 := fun e => h2 e
    cases s with
    | nil => simp [normEol, hc, lineEnds]
    | cons d s =>
      rw [normEol, if_neg hc, ih]

theorem normEol_cons {c : Nat} (hc : c ≠ 13) (s : PyStr) : normEol (c :: s) = c :: normEol s := by
  cases s with
  | nil => simp [normEol, hc]
  | cons d s => rw [normEol, if_neg hc]

theorem normEol_append {u : PyStr} (hu : ∀ c ∈ u, c ≠ 13) (s : PyStr) : normEol (u ++ s) = u ++ normEol s := by
  induction u with
  | nil => rfl
  | cons c u ih =>
    rw [List.cons_append, normEol_cons (hu c List.mem_cons_self), ih fun d hd => hu d (List.mem_cons_of_mem _ hd)]
    rfl

theorem normEol_text (t s : PyStr) : normEol (t.flatMap escText ++ 60 :: s) = (lineEnds t).flatMap escText ++ normEol (60 :: s) := by
  fun_induction lineEnds t with
  | case1 => rfl
  | case2 t ih =>
    have e1 : escText 13 = [13] := by decide
    have e2 : escText 10 = [10] := by decide
    simp only [List.flatMap_cons, e1, e2, List.cons_append, List.nil_append]
    rw [normEol, if_pos rfl, if_pos rfl, normEol_cons (by decide), ih]
  | case3 t ht ih =>
    have e1 : escText 13 = [13] := by decide
    have e2 : escText 10 = [10] := by decide
    simp only [List.flatMap_cons, e1, e2, List.cons_append, List.nil_append]
    cases hx : t.flatMap escText ++ 60 :: s with
    | nil => simp at hx
    | cons d r =>
      rw [normEol, if_pos rfl, if_neg, ← hx, ih]
      rintro rfl
      cases t with
      | nil => simp at hx
      | cons c t =>
        refine ht t ?_
        have : (escText c).head? = some 10 := by
          have h0 : escText c ≠ [] := by
            unfold escText
            repeat' split
            all_goals simp
          obtain ⟨x, y, e⟩ := List.exists_cons_of_ne_nil h0
          rw [List.flatMap_cons, e] at hx
          simp only [List.cons_append, List.cons.injEq] at hx
          rw [e, hx.1]; rfl
        unfold escText at this
        split at this
        · simp at this
        · split at this
          · simp at this
          · split at this
            · simp at this
            · simp at this; rw [this]
  | case4 c t h1 h2 ih =>
    rw [List.flatMap_cons, List.flatMap_cons, List.append_assoc, List.append_assoc, normEol_append, ih]
    intro d hd e
    rcases (mem_escText hd).2.2 with rfl | h
    · exact h2 e
    · exact h.2.2.2.1 e

theorem writeAll_head (k : List Xml) (s : PyStr) : ∃ r, writeAll k ++ 60 :: s = 60 :: r := by
  cases k with
  | nil => exact ⟨s, rfl⟩
  | cons x k =>
    cases x
    unfold writeAll writeXml
    exact ⟨_, rfl⟩

theorem writeAttrs_no13 (a : Attrs) : ∀ c ∈ writeAttrs a, c ≠ 13 := by
  have one : ∀ (n : PyStr), (∀ c ∈ n, c ≠ 13) → ∀ v, ∀ c ∈ writeAttr n v, c ≠ 13 := by
    intro n hn v c hc
    cases v with
    | none => cases hc
    | some v =>
      unfold writeAttr at hc
      simp only [List.mem_append, List.mem_flatMap] at hc
      rcases hc with (((hc | hc) | hc) | ⟨d, _, hc⟩) | hc
      · simp at hc; omega
      · exact hn c hc
      · simp at hc; omega
      · intro e
        subst e
        unfold escAttr escText at hc
        repeat' split at hc
        all_goals simp at hc
        all_goals omega
      · simp at hc; omega
  intro c hc
  unfold writeAttrs at hc
  rcases List.mem_append.mp hc with hc | hc
  · rcases List.mem_append.mp hc with hc | hc
    · exact one _ (by decide) _ c hc
    · exact one _ (by decide) _ c hc
  · exact one _ (by decide) _ c hc

theorem linesAll_nil (k : List Xml) : linesAll k = [] ↔ k = [] := by
  cases k <;> simp [linesAll]

theorem lineEnds_nil (s : PyStr) : lineEnds s = [] ↔ s = [] := by
  fun_cases lineEnds s <;> simp

mutual
theorem normEol_xml : ∀ (x : Xml) (s : PyStr), normEol (writeXml x ++ s) = writeXml x.lines ++ normEol s
  | .node t a x k, s => by
    have hopen : ∀ c ∈ [60] ++ t.name ++ writeAttrs a, c ≠ 13 := by
      intro c hc
      simp only [List.mem_append] at hc
      rcases hc with (hc | hc) | hc
      · simp at hc; omega
      · exact (safe_tag t c hc).2
      · exact writeAttrs_no13 a c hc
    have hclose : ∀ c ∈ [60, 47] ++ t.name ++ [62], c ≠ 13 := by
      intro c hc
      simp only [List.mem_append] at hc
      rcases hc with (hc | hc) | hc
      · simp at hc; omega
      · exact (safe_tag t c hc).2
      · simp at hc; omega
    unfold Xml.lines writeXml
    rw [List.append_assoc _ _ s, normEol_append hopen]
    have hl : (lineEnds x = [] ∧ linesAll k = []) ↔ x = [] ∧ k = [] := by rw [linesAll_nil, lineEnds_nil]
    by_cases h : x = [] ∧ k = []
    · rw [if_pos h, if_pos (hl.mpr h), normEol_append (by decide)]
      simp
    · rw [if_neg h, if_neg (mt hl.mp h)]
      obtain ⟨r, hr⟩ := writeAll_head k (47 :: (t.name ++ ([62] ++ s)))
      have e : [62] ++ x.flatMap escText ++ writeAll k ++ [60, 47] ++ t.name ++ [62] ++ s =
          62 :: (x.flatMap escText ++ 60 :: r) := by
        rw [← hr]; simp
      have ih := normEol_all k ([60, 47] ++ t.name ++ [62] ++ s)
      have e' : writeAll k ++ ([60, 47] ++ t.name ++ [62] ++ s) = 60 :: r := by rw [← hr]; simp
      rw [e, normEol_cons (by decide), normEol_text, ← e', ih, normEol_append hclose]
      simp
theorem normEol_all : ∀ (k : List Xml) (s : PyStr), normEol (writeAll k ++ s) = writeAll (linesAll k) ++ normEol s
  | [], s => by unfold linesAll writeAll; rfl
  | x :: xs, s => by
    unfold linesAll writeAll
    rw [List.append_assoc, normEol_xml x, normEol_all xs, List.append_assoc]
end

/-! ## What can be read -/

theorem lineEnds_clean {s : PyStr} (h : XmlOk s) : XmlLine (lineEnds s) := by
  have ten : IsXmlChar 10 ∧ 10 ≠ 13 := by unfold IsXmlChar; omega
  fun_induction lineEnds s with
  | case1 => intro c hc; cases hc
  | case2 s ih =>
    intro c hc
    rcases List.mem_cons.mp hc with rfl | hc
    · exact ten
    · exact ih (fun d hd => h d (by simp [hd])) c hc
  | case3 s hs ih =>
    intro c hc
    rcases List.mem_cons.mp hc with rfl | hc
    · exact ten
    · exact ih (fun d hd => h d (by simp [hd])) c hc
  | case4 d s h1 h2 ih =>
    intro c hc
    rcases List.mem_cons.mp hc with rfl | hc
    · exact ⟨h c List.mem_cons_self, fun e => h2 e⟩
    · exact ih (fun d hd => h d (by simp [hd])) c hc

mutual
theorem lines_clean : ∀ (x : Xml), x.Held → x.lines.Clean
  | .node t a x k, h => by
    have ⟨h1, h2, h3, h4⟩ : t ≠ .other ∧ (∀ v, v = a.refId ∨ v = a.name ∨ v = a.stream → ∀ s, v = some s → XmlOk s) ∧
        XmlOk x ∧ ∀ y ∈ k, y.Held := by cases h with | node h1 h2 h3 h4 => exact ⟨h1, h2, h3, h4⟩
    unfold Xml.lines
    exact .node h1 h2 (lineEnds_clean h3) (linesAll_clean k h4)
theorem linesAll_clean : ∀ (k : List Xml), (∀ x ∈ k, x.Held) → ∀ x ∈ linesAll k, x.Clean
  | [], _, x, hx => by unfold linesAll at hx; cases hx
  | y :: ys, h, x, hx => by
    unfold linesAll at hx
    rcases List.mem_cons.mp hx with rfl | hx
    · exact lines_clean y (h y List.mem_cons_self)
    · exact linesAll_clean ys (fun z hz => h z (List.mem_cons_of_mem _ hz)) x hx
end

theorem bad_escText {c : Nat} (h : ¬ IsXmlChar c) : escText c = [c] := by
  unfold IsXmlChar at h
  unfold escText
  rw [if_neg (by omega), if_neg (by omega), if_neg (by omega)]

theorem bad_escAttr {c : Nat} (h : ¬ IsXmlChar c) : escAttr c = [c] := by
  unfold escAttr
  rw [bad_escText h]
  unfold IsXmlChar at h
  rw [if_neg (by omega), if_neg (by omega), if_neg (by omega), if_neg (by omega)]

mutual
theorem held_of : ∀ (x : Xml), x.Texts (fun _ => True) (fun _ => True) → (∀ c ∈ writeXml x, IsXmlChar c) → x.Held
  | .node t a x k, h, hc => by
    have ⟨h1, h4⟩ : t ≠ .other ∧ ∀ y ∈ k, y.Texts (fun _ => True) (fun _ => True) := by
      cases h with | node h1 h2 h3 h4 => exact ⟨h1, h4⟩
    unfold writeXml at hc
    have hin : ∀ c ∈ x.flatMap escText ++ writeAll k, IsXmlChar c := by
      intro c hm
      refine hc c ?_
      rw [if_neg]
      · simp only [List.mem_append] at hm ⊢
        rcases hm with hm | hm
        · simp [hm]
        · simp [hm]
      · rintro ⟨rfl, rfl⟩
        unfold writeAll at hm
        cases hm
    have hat : ∀ c ∈ writeAttrs a, IsXmlChar c := fun c hm => hc c (by simp [hm])
    have hattr : ∀ n v s, (∀ c ∈ writeAttr n v, IsXmlChar c) → v = some s → XmlOk s := by
      intro n v s hw e c hm
      subst e
      refine Classical.byContradiction fun hb => hb (hw c ?_)
      unfold writeAttr
      simp only [List.mem_append, List.mem_flatMap]
      exact .inl (.inr ⟨c, hm, by rw [bad_escAttr hb]; simp⟩)
    refine .node h1 ?_ ?_ (held_all k h4 fun c hm => hin c (List.mem_append.mpr (.inr hm)))
    · rintro v (rfl | rfl | rfl) s e
      · exact hattr (txt! "RefId") _ s (fun c hm => hat c (by unfold writeAttrs; simp only [List.mem_append]; exact .inl (.inl hm))) e
      · exact hattr (txt! "N") _ s (fun c hm => hat c (by unfold writeAttrs; simp only [List.mem_append]; exact .inl (.inr hm))) e
      · exact hattr (txt! "S") _ s (fun c hm => hat c (by unfold writeAttrs; simp only [List.mem_append]; exact .inr hm)) e
    · intro c hm
      refine Classical.byContradiction fun hb => hb (hin c (List.mem_append.mpr (.inl (List.mem_flatMap.mpr ⟨c, hm, ?_⟩))))
      rw [bad_escText hb]
      simp
theorem held_all : ∀ (k : List Xml), (∀ x ∈ k, x.Texts (fun _ => True) (fun _ => True)) → (∀ c ∈ writeAll k, IsXmlChar c) →
    ∀ x ∈ k, x.Held
  | [], _, _, x, hx => by cases hx
  | y :: ys, h, hc, x, hx => by
    unfold writeAll at hc
    rcases List.mem_cons.mp hx with e | hx
    · exact e ▸ held_of y (h y List.mem_cons_self) fun c hm => hc c (List.mem_append.mpr (.inl hm))
    · exact held_all ys (fun z hz => h z (List.mem_cons_of_mem _ hz)) (fun c hm => hc c (List.mem_append.mpr (.inr hm))) x hx
end

mutual
theorem held_chars : ∀ (x : Xml), x.Held → ∀ c ∈ writeXml x, IsXmlChar c
  | .node t a x k, h, c, hm => by
    have ⟨h2, h3, h4⟩ : (∀ v, v = a.refId ∨ v = a.name ∨ v = a.stream → ∀ s, v = some s → XmlOk s) ∧
        XmlOk x ∧ ∀ y ∈ k, y.Held := by cases h with | node h1 h2 h3 h4 => exact ⟨h2, h3, h4⟩
    unfold writeXml at hm
    simp only [List.mem_append] at hm
    rcases hm with ((hm | hm) | hm) | hm
    · exact (safe_name (by decide) c hm).1
    · exact (safe_tag t c hm).1
    · exact (safe_attrs h2 c hm).1
    · split at hm
      · exact (safe_name (by decide) c hm).1
      · simp only [List.mem_append] at hm
        rcases hm with ((((hm | hm) | hm) | hm) | hm) | hm
        · exact (safe_name (by decide) c hm).1
        · obtain ⟨d, hd, hm⟩ := List.mem_flatMap.mp hm
          rcases (mem_escText hm).2.2 with rfl | hr
          · exact h3 c hd
          · exact (xmlChar_iff c).mp hr.2.2.2.2.2.2.2
        · exact held_chars_all k h4 c hm
        · exact (safe_name (by decide) c hm).1
        · exact (safe_tag t c hm).1
        · exact (safe_name (by decide) c hm).1
theorem held_chars_all : ∀ (k : List Xml), (∀ x ∈ k, x.Held) → ∀ c ∈ writeAll k, IsXmlChar c
  | [], _, c, hm => by unfold writeAll at hm; cases hm
  | x :: xs, h, c, hm => by
    unfold writeAll at hm
    rcases List.mem_append.mp hm with hm | hm
    · exact held_chars x (h x List.mem_cons_self) c hm
    · exact held_chars_all xs (fun y hy => h y (List.mem_cons_of_mem _ hy)) c hm
end

/-- Texts of XML characters without carriage returns are parsed as the pieces say. -/
theorem parseXml_lines {t u : PyStr} (ht : ∀ c ∈ t, IsXmlChar c) (hu : ∀ c ∈ u, IsXmlChar c) (h : normEol t = u) (h' : normEol u = u) :
    parseXml t = parseXml u := by
  have sur : ∀ {s : PyStr}, (∀ c ∈ s, IsXmlChar c) → ¬ s.any isSurrogate = true := by
    intro s hs ha
    obtain ⟨c, hc, hs'⟩ := List.any_eq_true.mp ha
    have := hs c hc
    unfold IsXmlChar at this
    unfold isSurrogate at hs'
    simp only [decide_eq_true_eq] at hs'
    omega
  have ok : ∀ {s : PyStr}, (∀ c ∈ s, IsXmlChar c) → ¬ ¬ s.all xmlChar = true := fun hs =>
    not_not_intro (List.all_eq_true.mpr fun c hc => (xmlChar_iff c).mpr (hs c hc))
  rw [parseXml_eq, parseXml_eq]
  rw [if_neg (sur ht), if_neg (ok ht), if_neg (sur hu), if_neg (ok hu), h, h']

/-- What XML can hold comes back with its line ends as XML reads them. -/
theorem parse_held {op : PyStr} (ho : RootTag op) {xs : List Xml} (h : ∀ x ∈ xs, x.Held) :
    parseXml (op ++ writeAll xs ++ (txt! "</Objs>")) = .ok (linesAll xs) := by
  have hl := linesAll_clean xs h
  rw [← parse_clean ho hl]
  have chars : ∀ {ys : List Xml}, (∀ c ∈ writeAll ys, IsXmlChar c) →
      ∀ c ∈ op ++ writeAll ys ++ (txt! "</Objs>"), IsXmlChar c := by
    intro ys hy c hc
    simp only [List.mem_append] at hc
    rcases hc with (hc | hc) | hc
    · exact (ho.safe c hc).1
    · exact hy c hc
    · exact (safe_name (by decide) c hc).1
  refine parseXml_lines (chars (held_chars_all xs h)) (chars fun c hc => (safe_all _ hl c hc).1) ?_ (normEol_of fun c hc => ?_)
  · rw [List.append_assoc, normEol_append (fun c hc => (ho.safe c hc).2), normEol_all, ← List.append_assoc]
    rfl
  · simp only [List.mem_append] at hc
    rcases hc with (hc | hc) | hc
    · exact (ho.safe c hc).2
    · exact (safe_all _ hl c hc).2
    · exact (safe_name (by decide) c hc).2

/-- Only texts of XML characters are read at all. -/
theorem chars_of_parse {t : PyStr} {ys : List Xml} (h : parseXml t = .ok ys) : ∀ c ∈ t, IsXmlChar c := by
  rw [parseXml_eq] at h
  split at h
  · cases h
  · split at h
    · cases h
    · rename_i _ ha
      exact fun c hc => (xmlChar_iff c).mp (List.all_eq_true.mp (Classical.byContradiction ha) c hc)

end Verif
