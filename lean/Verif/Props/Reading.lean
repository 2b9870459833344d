import Verif.Proof.ReadingEnum
import Verif.Proof.ReadingAll
import Verif.Props.Numbers

/-! # C69: what other peers write is read -/

namespace Verif

/-- C69, bools: the text `true` in capital or small letters is true, all other texts are false. -/
theorem C69_bool (E : TextEnv) (L : Lib) (n : Nat) (a : Attrs) (t : PyStr) (kids : List Xml) (s : DState) :
    ∃ b, deser E L (n + 1) (.node .B a t kids) s = .ok (.bool b, s) ∧ (b = true ↔ CaseEq t (txt! "true")) := by
  refine ⟨_, rfl, ?_⟩
  rw [← lowerAscii_eq]
  show decide (lowerAscii t = txt! "true") = true ↔ _
  rw [decide_eq_true_iff]
  exact Iff.rfl

example (E : TextEnv) (L : Lib) (s : DState) : deser E L 1 (.node .B {} (txt! "TRUE") []) s = .ok (.bool true, s) := by
  obtain ⟨b, h, hb⟩ := C69_bool E L 0 {} (txt! "TRUE") [] s
  rw [h, hb.mpr]
  exact (lowerAscii_eq _ _).mp rfl

/-- C69, ints: the element of an integer type is read if and only if its text is an integer of that type, with or without
sign and zeros in front, or it has no text, which is 0. The integers here are those of Python: digits of any script, white
space around them and underscores between them are read as well. -/
theorem C69_int (E : TextEnv) (L : Lib) (n : Nat) (k : IntKind) (a : Attrs) (t : PyStr) (kids : List Xml) (v : DVal)
    (s s' : DState) : deser E L (n + 1) (.node (.int k) a t kids) s = .ok (v, s') ↔
      s' = s ∧ ∃ i, v = .prim (.int k i) ∧ ((t = [] ∧ i = 0) ∨ (IntegerText i t ∧ k.InRange i)) := by
  have hd : deser E L (n + 1) (.node (.int k) a t kids) s = (match readInt k t with
      | .ok p => .ok (.prim p, s)
      | .error e => .error e) := by
    rw [deser]
    show (match some (readInt k t) with | some (.ok p) => _ | some (.error e) => _ | none => _) = _
    cases readInt k t <;> rfl
  rw [hd]
  constructor
  · intro h
    cases hr : readInt k t with
    | error e => rw [hr] at h; cases h
    | ok p =>
      rw [hr] at h
      cases h
      obtain ⟨i, rfl, hi⟩ := (readInt_iff k t p).mp hr
      exact ⟨rfl, i, rfl, hi⟩
  · rintro ⟨rfl, i, rfl, hi⟩
    rw [(readInt_iff k t _).mpr ⟨i, rfl, hi⟩]

example (E : TextEnv) (L : Lib) (s : DState) :
    deser E L 1 (.node (.int .psInt16) {} (txt! "-00032768") []) s = .ok (.prim (.int .psInt16 (-32768)), s) :=
  (C69_int E L 0 .psInt16 {} _ [] _ s s).mpr ⟨rfl, _, rfl, .inr ⟨(intOfText_iff _ _).mp (by decide +kernel), by
    unfold IntKind.InRange; decide⟩⟩

/-- Not only what the protocol allows is read. -/
example (E : TextEnv) (L : Lib) (s : DState) :
    deser E L 1 (.node (.int .psInt) {} (txt! " +1_0٣\n") []) s = .ok (.prim (.int .psInt 103), s) :=
  (C69_int E L 0 .psInt {} _ [] _ s s).mpr ⟨rfl, _, rfl, .inr ⟨(intOfText_iff _ _).mp (by decide +kernel), by
    unfold IntKind.InRange; decide⟩⟩

/-- C69, chars: the element of a char is read if and only if its text is the number of a UTF-16 unit. -/
theorem C69_char (E : TextEnv) (L : Lib) (n : Nat) (a : Attrs) (t : PyStr) (kids : List Xml) (v : DVal) (s s' : DState) :
    deser E L (n + 1) (.node .C a t kids) s = .ok (v, s') ↔
      s' = s ∧ ∃ i, v = .prim (.char i) ∧ IntegerText i t ∧ 0 ≤ i ∧ i < 65536 := by
  have hd : deser E L (n + 1) (.node .C a t kids) s = (match readChar t with
      | .ok p => .ok (.prim p, s)
      | .error e => .error e) := by
    rw [deser]
    show (match some (readChar t) with | some (.ok p) => _ | some (.error e) => _ | none => _) = _
    cases readChar t <;> rfl
  rw [hd]
  unfold readChar
  constructor
  · intro h
    cases hr : intOfText t with
    | error e => rw [hr] at h; cases h
    | ok i =>
      rw [hr] at h
      dsimp only at h
      unfold charOfInt at h
      by_cases hi : i < 0 ∨ i > 65535
      · rw [if_pos hi] at h; cases h
      · rw [if_neg hi] at h
        cases h
        exact ⟨rfl, i, rfl, (intOfText_iff t i).mp hr, by omega, by omega⟩
  · rintro ⟨rfl, i, rfl, hi, h1, h2⟩
    rw [(intOfText_iff t i).mpr hi]
    dsimp only
    unfold charOfInt
    rw [if_neg (by omega)]
    rfl

example (E : TextEnv) (L : Lib) (s : DState) : deser E L 1 (.node .C {} (txt! "0065") []) s = .ok (.prim (.char 65), s) :=
  (C69_char E L 0 {} _ [] _ s s).mpr ⟨rfl, 65, rfl, (intOfText_iff _ _).mp (by decide +kernel), by decide, by decide⟩

/-- The elements whose value is a text. -/
def textTag : StrKind → Tag
  | .string => .S
  | .uri => .URI
  | .xml => .XD
  | .script => .SBK

/-- The elements whose value is a float. -/
def floatTag : FloatKind → Tag
  | .single => .Sg
  | .double => .Db

/-- C69, texts: each text an XML document can hold stands for UTF-16 units, where escapes may have digits in either case,
pairs may be escaped or not, and need not be escaped both; the value is the text of these units. The exception is the one of
C23: a text with the two characters U+5F00 U+7800. -/
theorem C69_string_partial (E : TextEnv) (L : Lib) (n : Nat) (k : StrKind) (a : Attrs) (t : PyStr) (kids : List Xml)
    (ht : NoSurrogates t) (hm : ¬ Misleading t) : ∃ us s, Unescaped t us ∧ Spelled s us ∧
      ∀ st, deser E L (n + 1) (.node (textTag k) a t kids) st = .ok (.prim (.str k s), st) := by
  obtain ⟨us, hu⟩ := unescaped_exists _ t (Nat.le_refl _) ht
  obtain ⟨s, hs⟩ := spelled_exists _ us (Nat.le_refl _)
  have h := read_string hu hs ht hm
  refine ⟨us, s, hu, hs, fun st => ?_⟩
  cases k <;>
  · rw [deser]
    dsimp only [textTag, Xml.tag, Xml.text, Xml.kids, readPrim]
    rw [h]
    rfl

/-- C69, texts, with the units given. -/
theorem C69_string_units_partial (E : TextEnv) (L : Lib) (n : Nat) (k : StrKind) (a : Attrs) (t s : PyStr) (us : List Nat)
    (kids : List Xml) (hu : Unescaped t us) (hs : Spelled s us) (ht : NoSurrogates t) (hm : ¬ Misleading t) (st : DState) :
    deser E L (n + 1) (.node (textTag k) a t kids) st = .ok (.prim (.str k s), st) := by
  have h := read_string hu hs ht hm
  cases k <;>
  · rw [deser]
    dsimp only [textTag, Xml.tag, Xml.text, Xml.kids, readPrim]
    rw [h]
    rfl

/-- An escape with a small letter. -/
example : ∃ us, Unescaped (txt! "_x005f_a") us ∧ Spelled (txt! "_a") us ∧ NoSurrogates (txt! "_x005f_a") ∧
    ¬ Misleading (txt! "_x005f_a") := by
  refine ⟨[95, 97], ?_, ?_, ?_, ?_⟩
  · refine .escape (u := 95) (rest := [97]) ⟨0, 0, 5, 15, 48, 48, 53, 102, rfl, .inl ?_, .inl ?_, .inl ?_, .inr ?_, rfl⟩ ?_
    · unfold HexOf; decide
    · unfold HexOf; decide
    · unfold HexOf; decide
    · decide
    · refine .plain (cs := [97]) (us := []) ?_ (.inl ⟨by decide, rfl⟩) .nil
      rintro u rest ⟨_, _, _, _, _, _, _, _, _, _, _, _, _, h⟩
      cases h
  · exact .single (fun h => by unfold IsHigh at h; omega) (.single (fun h => by unfold IsHigh at h; omega) .nil)
  · intro c hc
    have : c < 128 := by
      have : ∀ c ∈ txt! "_x005f_a", c < 128 := by decide
      exact this c hc
    unfold IsHigh IsLow; omega
  · rintro ⟨pre, post, h⟩
    have : ∀ c ∈ txt! "_x005f_a", c < 128 := by decide
    have := this 0x5F00 (by rw [h]; simp)
    omega

/-- C69, dates: a date of the XML schema with up to seven digits behind the seconds, none of which need be there, and with
any time zone of less than a day, gives the date with these fields. -/
theorem C69_date (E : TextEnv) (L : Lib) (n : Nat) (a : Attrs) (d : DateFields) (hd : d.Valid) (t : PyStr) (h : AnyDate d t)
    (kids : List Xml) (s : DState) : deser E L (n + 1) (.node .DT a t kids) s = .ok (.prim (.date d), s) := by
  have h := read_date hd h
  rw [deser]
  dsimp only [Xml.tag, Xml.text, Xml.kids, readPrim]
  rw [h]
  rfl

/-- Half past one on a leap day with two digits behind the seconds and a time zone of a quarter of an hour. -/
example : ∃ d : DateFields, d.Valid ∧ AnyDate d (txt! "2024-02-29T13:30:59.25-00:15") ∧ d.microsecond = 250000 := by
  refine ⟨⟨2024, 2, 29, 13, 30, 59, 250000, 0, some (-900)⟩, ?_, ?_, rfl⟩
  · exact ⟨by decide, by decide, by unfold DayOfMonth LeapYear; decide, by decide, by decide, by decide, by decide, by decide,
      fun o h => by cases h; decide⟩
  · refine ⟨txt! "2024", txt! "02", txt! "29", txt! "13", txt! "30", txt! "59", txt! ".25", txt! "-00:15", ?_, ?_, ?_, ?_, ?_,
      ?_, ?_, ?_, by decide +kernel⟩
    · exact fixed_pad (k := 4) (n := 2024) (by decide)
    · exact fixed_pad (k := 2) (n := 2) (by decide)
    · exact fixed_pad (k := 2) (n := 29) (by decide)
    · exact fixed_pad (k := 2) (n := 13) (by decide)
    · exact fixed_pad (k := 2) (n := 30) (by decide)
    · exact fixed_pad (k := 2) (n := 59) (by decide)
    · exact .inr ⟨25, txt! "25", (fixed_pad (k := 2) (n := 25) (by decide)).1, by decide, by decide, by decide +kernel, by decide, by decide⟩
    · exact .inr ⟨0, 15, txt! "00", txt! "15", by decide, by decide, fixed_pad (k := 2) (n := 0) (by decide), fixed_pad (k := 2) (n := 15) (by decide),
        .inr ⟨by decide, by decide +kernel⟩⟩

/-- C69, durations: days, hours, minutes and seconds of any number, any of which may be left out, with up to seven digits
behind the seconds and behind a minus sign or not, give the duration of so many ticks of 100 ns, if it is in the range of the
class. -/
theorem C69_duration (E : TextEnv) (hE : ExtendsAscii E.uni) (L : Lib) (n : Nat) (a : Attrs) (ticks : Int) (t : PyStr)
    (h : AnySpan ticks t) (d : Duration) (hd : d.Valid) (hv : d.totalNs = 100 * ticks) (kids : List Xml) (s : DState) :
    deser E L (n + 1) (.node .TS a t kids) s = .ok (.prim (.duration d), s) := by
  have h := (read_span hE h).trans ((Duration.ofNanos_iff _ d).mpr ⟨hd, by omega⟩)
  rw [deser]
  dsimp only [Xml.tag, Xml.text, Xml.kids, readPrim]
  rw [h]
  rfl

/-- Thirty hours and a half second, before now. -/
example : AnySpan (-1080005000000) (txt! "-PT30H0.5S") ∧ ∃ d : Duration, d.Valid ∧ d.totalNs = 100 * -1080005000000 := by
  refine ⟨⟨1080005000000, .inr ⟨rfl, txt! "PT30H0.5S", rfl, ?_⟩⟩, ⟨-2, 64799, 500000, 0⟩, ?_, by decide⟩
  · exact ⟨0, [], .inl ⟨rfl, rfl⟩, .inr ⟨30, 0, 5000000, txt! "30H", [], txt! "0.5S",
      .inr ⟨txt! "30", (fixed_pad (k := 2) (n := 30) (by decide)).1, by decide, rfl⟩, .inl ⟨rfl, rfl⟩,
      .inr ⟨0, txt! "0", (fixed_pad (k := 1) (n := 0) (by decide)).1, by decide, by decide, .inr ⟨5, txt! "5",
        (fixed_pad (k := 1) (n := 5) (by decide)).1, by decide, by decide, by decide, rfl⟩⟩, by decide, by decide, rfl⟩⟩
  · unfold Duration.Valid; decide

/-- C69, bytes: each base64 text gives its bytes. -/
theorem C69_bytes (E : TextEnv) (L : Lib) (n : Nat) (a : Attrs) (b : Bytes) (t : PyStr) (h : Base64 b t) (kids : List Xml)
    (s : DState) : deser E L (n + 1) (.node .BA a t kids) s = .ok (.prim (.bytes b), s) := by
  have h := read_bytes h
  rw [deser]
  dsimp only [Xml.tag, Xml.text, Xml.kids, readPrim]
  rw [h]
  rfl

example : Base64 [77, 97, 110, 77] (txt! "TWFuTQ==") :=
  .three (w := 19) (x := 22) (y := 5) (z := 46) (by decide) (by unfold SextetOf; decide) (by unfold SextetOf; decide)
    (by unfold SextetOf; decide) (by unfold SextetOf; decide)
    (.one (w := 19) (x := 16) (by decide) (by unfold SextetOf; decide) (by unfold SextetOf; decide))

/-- C69, GUIDs: digits in either case, in groups or in a row, in braces or as a name, give the GUID. -/
theorem C69_guid (E : TextEnv) (L : Lib) (n : Nat) (a : Attrs) (g : Nat) (t : PyStr) (h : GuidText g t) (kids : List Xml)
    (s : DState) : deser E L (n + 1) (.node .G a t kids) s = .ok (.prim (.guid g), s) := by
  have h := read_guid h
  rw [deser]
  dsimp only [Xml.tag, Xml.text, Xml.kids, readPrim]
  rw [readText_some (fun e => by rw [e] at h; cases h), h]
  rfl

/-- C69, decimals: a number in plain notation or with an exponent, with a sign or without, is read with all its digits. -/
theorem C69_decimal (E : TextEnv) (L : Lib) (n : Nat) (a : Attrs) (m : Nat) (e : Int) (t : PyStr) (h : NumberText m e t)
    (kids : List Xml) (s : DState) :
    deser E L (n + 1) (.node .D a t kids) s = .ok (.prim (.decimal (.finite false m e)), s) ∧
    deser E L (n + 1) (.node .D a (43 :: t) kids) s = .ok (.prim (.decimal (.finite false m e)), s) ∧
    deser E L (n + 1) (.node .D a (45 :: t) kids) s = .ok (.prim (.decimal (.finite true m e)), s) := by
  have read : ∀ {d u}, decimalOfText u = .ok d → deser E L (n + 1) (.node .D a u kids) s = .ok (.prim (.decimal d), s) := by
    intro d u h
    rw [deser]
    dsimp only [Xml.tag, Xml.text, Xml.kids, readPrim]
    rw [readText_some (fun e => by rw [e] at h; cases h), h]
    rfl
  exact ⟨read (decimal_read h (.inl ⟨rfl, rfl⟩)), read (decimal_read h (.inr (.inl ⟨rfl, rfl⟩))),
    read (decimal_read h (.inr (.inr ⟨rfl, rfl⟩)))⟩

/-- C69, floats: a number is read as the double next to it, or as infinity if there is none. `v` is the value with no sign or
a plus, `w` the one with a minus. -/
theorem C69_float (E : TextEnv) (L : Lib) (n : Nat) (k : FloatKind) (a : Attrs) (m : Nat) (e : Int) (t : PyStr)
    (h : NumberText m e t) (kids : List Xml) (s : DState) : ∃ v w : PyFloat,
    ((∃ u, NearestDouble (numerator m e) (denominator e) u ∧ ¬ TooLarge (numerator m e) (denominator e) ∧ v = .finite false u ∧
      w = .finite true u) ∨ (TooLarge (numerator m e) (denominator e) ∧ v = .infinity false ∧ w = .infinity true)) ∧
    deser E L (n + 1) (.node (floatTag k) a t kids) s = .ok (.prim (.float k v), s) ∧
    deser E L (n + 1) (.node (floatTag k) a (43 :: t) kids) s = .ok (.prim (.float k v), s) ∧
    deser E L (n + 1) (.node (floatTag k) a (45 :: t) kids) s = .ok (.prim (.float k w), s) := by
  have read : ∀ {x u}, floatOfText u = .ok x → deser E L (n + 1) (.node (floatTag k) a u kids) s = .ok (.prim (.float k x), s) := by
    intro x u h
    cases k <;>
    · rw [deser]
      dsimp only [Xml.tag, Xml.text, Xml.kids, readPrim, floatTag]
      rw [readText_some (fun e => by rw [e] at h; cases h), h]
      rfl
  rcases C83_read m e t h with ⟨u, h1, h2, h3, h4, h5⟩ | ⟨h1, h3, h4, h5⟩
  · exact ⟨_, _, .inl ⟨u, h1, h2, rfl, rfl⟩, read h3, read h4, read h5⟩
  · exact ⟨_, _, .inr ⟨h1, rfl, rfl⟩, read h3, read h4, read h5⟩

/-- C69, floats: infinities and NaN as the protocol has them. -/
theorem C69_float_specials (E : TextEnv) (L : Lib) (n : Nat) (k : FloatKind) (a : Attrs) (kids : List Xml) (s : DState) :
    deser E L (n + 1) (.node (floatTag k) a (txt! "INF") kids) s = .ok (.prim (.float k (.infinity false)), s) ∧
    deser E L (n + 1) (.node (floatTag k) a (txt! "-INF") kids) s = .ok (.prim (.float k (.infinity true)), s) ∧
    deser E L (n + 1) (.node (floatTag k) a (txt! "NaN") kids) s = .ok (.prim (.float k .nan), s) := by
  have read : ∀ {x u}, floatOfText u = .ok x → deser E L (n + 1) (.node (floatTag k) a u kids) s = .ok (.prim (.float k x), s) := by
    intro x u h
    cases k <;>
    · rw [deser]
      dsimp only [Xml.tag, Xml.text, Xml.kids, readPrim, floatTag]
      rw [readText_some (fun e => by rw [e] at h; cases h), h]
      rfl
  exact ⟨read C83_read_specials.2.1, read C83_read_specials.2.2.1, read C83_read_specials.1⟩

example : GuidText 0 (txt! "00000000000000000000000000000000") :=
  .row (by
    have h := hexRow_digits 32 0 (by decide)
    exact h.mono fun _ _ h => h.any) rfl

example : NumberText 15 0 (txt! "1.5e1") :=
  .point (w := txt! "1") (f := txt! "5") (x := txt! "e1") (e := 1) (natStr_digits 15 : Digits 15 (txt! "15")) (by simp)
    (.plain (.inl rfl) (natStr_digits 1 : Digits 1 (txt! "1")) (by simp))

/-- C69, progress records: the element is read if and only if its children stand for a record, in any order, where the first
of several with one tag counts, and all but three may be left out. -/
theorem C69_progress (E : TextEnv) (L : Lib) (n : Nat) (a : Attrs) (t : PyStr) (kids : List Xml) (v : DVal) (s s' : DState) :
    deser E L (n + 1) (.node .PR a t kids) s = .ok (v, s') ↔
      s' = s ∧ ∃ r, v = .prim (.progress r) ∧ ProgressOf kids r := by
  have hd : deser E L (n + 1) (.node .PR a t kids) s = (match readProgress kids with
      | .ok p => .ok (.prim (.progress p), s)
      | .error e => .error e) := by
    rw [deser]
    show (match some ((readProgress kids).map Prim.progress) with | some (.ok p) => _ | some (.error e) => _ | none => _) = _
    cases readProgress kids <;> rfl
  rw [hd]
  constructor
  · intro h
    cases hr : readProgress kids with
    | error e => rw [hr] at h; cases h
    | ok r =>
      rw [hr] at h
      cases h
      exact ⟨rfl, r, rfl, (readProgress_iff kids r).mp hr⟩
  · rintro ⟨rfl, r, rfl, h⟩
    rw [(readProgress_iff kids r).mpr h]

/-- A record with its children in another order, an unknown child and without percentage. -/
def shortProgress : List Xml :=
  [.node .SD {} (txt! "busy") [], .node .AI {} (txt! "+07") [], .node .Nil {} [] [], .node .AV {} (txt! "copy") [],
    .node .T {} (txt! "Completed") [], .node .AV {} (txt! "move") []]

example (E : TextEnv) (L : Lib) (s : DState) : ∃ r, ProgressOf shortProgress r ∧ r.activity = txt! "copy" ∧
    r.activityId = some 7 ∧ r.percent = some (-1) ∧ r.completed = true ∧
    deser E L 1 (.node .PR {} [] shortProgress) s = .ok (.prim (.progress r), s) := by
  have h : readProgress shortProgress = .ok
      { activityId := some 7, activity := txt! "copy", status := txt! "busy", operation := none, parentId := some (-1),
        percent := some (-1), completed := true, seconds := some (-1) } := by decide +kernel
  exact ⟨_, (readProgress_iff _ _).mp h, rfl, rfl, rfl, rfl, (C69_progress E L 0 {} [] _ _ s s).mpr
    ⟨rfl, _, rfl, (readProgress_iff _ _).mp h⟩⟩

/-- C69, dicts: whatever the entries are, objects, references or dicts around this one, when the dict is read, then the `Value`
and the `Key` of every entry were read, and the dict is the one Python makes of these keys and values, one after another. -/
theorem C69_dict (E : TextEnv) (L : Lib) (std : L.Standard) (n : Nat) (ref da : Attrs) (xs : List Xml) (s s' : DState) (v : DVal)
    (h : deser E L (n + 1) (.node .Obj ref [] [.node .DCT da [] xs]) s = .ok (v, s')) :
    ∃ b d es ds, v = .ref b ∧ s'.heap[b]? = some d ∧ d.cls = some (txt! "PSDict") ∧ d.data = .dict ds ∧
      All2 (EntryRead (deser E L n)) xs es ∧ ((∀ e ∈ es, SameKey e.1 e.1) → DictOf es ds) :=
  (read_dict_any E L std n ref da xs s).1 v s' h

/-- C69, dicts: a dict is refused only for an entry that is refused. -/
theorem C69_dict_refused (E : TextEnv) (L : Lib) (std : L.Standard) (n : Nat) (ref da : Attrs) (xs : List Xml) (s : DState)
    (err : Err) (h : deser E L (n + 1) (.node .Obj ref [] [.node .DCT da [] xs]) s = .error err) :
    ∃ x ∈ xs, EntryRefused (deser E L n) x err :=
  (read_dict_any E L std n ref da xs s).2 err h

/-- C69, lists, stacks and enumerables: whatever the items are, the list has what was read for them, in their order. -/
theorem C69_list (E : TextEnv) (L : Lib) (std : L.Standard) (n : Nat) (k : ListKind) (ref da : Attrs) (xs : List Xml)
    (s s' : DState) (v : DVal) (h : deser E L (n + 1) (.node .Obj ref [] [.node k.tag da [] xs]) s = .ok (v, s')) :
    ∃ b d vs, v = .ref b ∧ s'.heap[b]? = some d ∧ d.cls = some k.cls ∧ d.data = .list vs ∧
      All2 (fun x v => ∃ s1 s2, deser E L n x s1 = .ok (v, s2)) xs vs :=
  (read_list_any E L std n k ref da xs s).1 v s' h

/-- C69, lists: a list is refused only for an item that is refused, and with its error. -/
theorem C69_list_refused (E : TextEnv) (L : Lib) (std : L.Standard) (n : Nat) (k : ListKind) (ref da : Attrs) (xs : List Xml)
    (s : DState) (err : Err) (h : deser E L (n + 1) (.node .Obj ref [] [.node k.tag da [] xs]) s = .error err) :
    ∃ x ∈ xs, ∃ s1, deser E L n x s1 = .error err :=
  (read_list_any E L std n k ref da xs s).2 err h

/-- C69, dicts: entries whose keys and values are read without an effect on the state, as primitives are, always make a
dict. -/
theorem C69_dict_primitives (E : TextEnv) (L : Lib) (std : L.Standard) (n : Nat) (ref da : Attrs) (xs : List Xml)
    (es : List (DVal × DVal)) (hx : All2 (fun x e => ∃ xk xv, findNamed (txt! "Key") x = .ok xk ∧
      findNamed (txt! "Value") x = .ok xv ∧ (∀ s, deser E L n xk s = .ok (e.1, s)) ∧ ∀ s, deser E L n xv s = .ok (e.2, s)) xs es)
    (hk : ∀ e ∈ es, SameKey e.1 e.1) (s : DState) :
    ∃ b d ds s', deser E L (n + 1) (.node .Obj ref [] [.node .DCT da [] xs]) s = .ok (.ref b, s') ∧ s'.heap[b]? = some d ∧
      d.cls = some (txt! "PSDict") ∧ d.data = .dict ds ∧ DictOf es ds :=
  read_dict E L std n ref da xs es hx hk s

/-- An entry of a dict. -/
def keyEntry (k v : Xml) : Xml := .node .En {} [] [k, v]

/-- A dict that has itself under "a" and a list under "b". -/
def selfDict : Xml := .node .Obj { refId := some (txt! "0") } [] [.node .DCT {} []
  [keyEntry (.node .S { name := some (txt! "Key") } (txt! "a") []) (.node .Ref { refId := some (txt! "0"), name := some (txt! "Value") } [] []),
    keyEntry (.node .S { name := some (txt! "Key") } (txt! "b") [])
      (.node .Obj { name := some (txt! "Value") } [] [.node .LST {} [] [.node .Nil {} [] []]])]]

example (E : TextEnv) : ∃ s', deser E library 4 selfDict {} = .ok (.ref 1, s') ∧ (s'.heap[1]?.map DObj.data) =
    some (.dict [(.prim (.str .string (txt! "a")), .ref 1), (.prim (.str .string (txt! "b")), .ref 3)]) :=
  ⟨_, rfl, rfl⟩

example (E : TextEnv) : deser E library 4 (.node .Obj {} [] [.node .DCT {} [] [keyEntry
    (.node .Obj { name := some (txt! "Key") } [] [.node .LST {} [] []]) (.node .Nil { name := some (txt! "Value") } [] [])]]) {} =
    .error .typeError := rfl

example (E : TextEnv) : ∃ s', deser E library 4 (.node .Obj {} [] [.node .STK {} [] [.node .Obj {} [] [.node .LST {} [] []],
    .node .Nil {} [] []]]) {} = .ok (.ref 1, s') ∧ (s'.heap[1]?.map DObj.data) = some (.list [.ref 3, .nil]) := ⟨_, rfl, rfl⟩

example (E : TextEnv) : deser E library 4 (.node .Obj {} [] [.node .LST {} [] [.node .Ref { refId := some (txt! "7") } [] []]]) {} =
    .error .keyError := rfl

/-- The keys 1, `true` and "a": the second is the first again and changes its value. -/
def threeEntries : List Xml :=
  [keyEntry (.node (.int .psInt) { name := some (txt! "Key") } (txt! "1") [])
      (.node .S { name := some (txt! "Value") } (txt! "x") []),
    keyEntry (.node .B { name := some (txt! "Key") } (txt! "true") [])
      (.node .S { name := some (txt! "Value") } (txt! "y") []),
    keyEntry (.node .S { name := some (txt! "Key") } (txt! "a") [])
      (.node .B { name := some (txt! "Value") } (txt! "no") [])]

example (E : TextEnv) (s : DState) : ∃ b d s',
    deser E library 3 (.node .Obj {} [] [.node .DCT {} [] threeEntries]) s = .ok (.ref b, s') ∧ s'.heap[b]? = some d ∧
      ∃ ds, d.data = .dict ds ∧ (DVal.prim (.int .psInt 1), DVal.prim (.str .string (txt! "y"))) ∈ ds := by
  obtain ⟨b, d, ds, s', h1, h2, _, h3, h4⟩ := C69_dict_primitives E library library_standard 2 {} {} threeEntries
    [(.prim (.int .psInt 1), .prim (.str .string (txt! "x"))), (.bool true, .prim (.str .string (txt! "y"))),
      (.prim (.str .string (txt! "a")), .bool false)]
    (.cons ⟨_, _, rfl, rfl, fun _ => rfl, fun _ => rfl⟩ (.cons ⟨_, _, rfl, rfl, fun _ => rfl, fun _ => rfl⟩
      (.cons ⟨_, _, rfl, rfl, fun _ => rfl, fun _ => rfl⟩ .nil)))
    (by
      intro e he
      simp only [List.mem_cons, List.not_mem_nil, or_false] at he
      rcases he with rfl | rfl | rfl
      · exact .number .int .int
      · exact .number .bool .bool
      · exact .text) s
  refine ⟨b, d, s', h1, h2, ds, h3, (h4.entry _ _).mpr ⟨⟨[], _, _, rfl, by simp⟩, ?_⟩⟩
  refine ⟨[_], .bool true, [_], rfl, .number (n := 1) .bool .int, ?_⟩
  intro e he
  cases List.mem_singleton.mp he
  intro h
  cases h with
  | number hk _ => cases hk
  | infinite hk _ => cases hk

/-- A dict with dates of three ticks of 100 nanoseconds as keys. -/
def tickDict : Xml := .node .Obj {} [] [.node .DCT {} []
  [keyEntry (.node .DT { name := some (txt! "Key") } (txt! "2024-02-29T10:00:00.0000001Z") [])
      (.node .S { name := some (txt! "Value") } (txt! "x") []),
    keyEntry (.node .DT { name := some (txt! "Key") } (txt! "2024-02-29T10:00:00.0000002Z") [])
      (.node .S { name := some (txt! "Value") } (txt! "y") []),
    keyEntry (.node .DT { name := some (txt! "Key") } (txt! "2024-03-01T09:00:00.0000010+23:00") [])
      (.node .S { name := some (txt! "Value") } (txt! "z") [])]]

/-- The dates of the first two ticks. -/
def tickDate (ns : Nat) : DateFields := ⟨2024, 2, 29, 10, 0, 0, 0, ns, some 0⟩

set_option maxRecDepth 20000 in
/-- C69 fails for dicts with dates as keys: dates of one microsecond are read as different dates but are one key, and an entry
is lost. The third date is another microsecond, in another time zone. -/
theorem C69_dict_dates_violated (E : TextEnv) : ∃ s' z,
    deser E library 4 (.node .DT {} (txt! "2024-02-29T10:00:00.0000001Z") []) {} = .ok (.prim (.date (tickDate 100)), {}) ∧
    deser E library 4 (.node .DT {} (txt! "2024-02-29T10:00:00.0000002Z") []) {} = .ok (.prim (.date (tickDate 200)), {}) ∧
    deser E library 4 tickDict {} = .ok (.ref 1, s') ∧ (s'.heap[1]?.map DObj.data) =
      some (.dict [(.prim (.date (tickDate 100)), .prim (.str .string (txt! "y"))), (z, .prim (.str .string (txt! "z")))]) :=
  ⟨_, _, rfl, rfl, rfl, rfl⟩

/-- One instant in two time zones is one key, across the end of February in a leap year; without a time zone it is another. -/
example : SameKey (.prim (.date (tickDate 0))) (.prim (.date ⟨2024, 3, 1, 9, 0, 0, 0, 500, some 82800⟩)) ∧
    ¬ SameKey (.prim (.date (tickDate 0))) (.prim (.date ⟨2024, 2, 29, 10, 0, 0, 0, 0, none⟩)) := by
  have h := micros_eq
  refine ⟨.date rfl (by rw [← h, ← h]; decide +kernel), ?_⟩
  rintro (⟨⟨⟩⟩ | _ | _ | ⟨⟨⟩⟩ | _ | ⟨⟨⟩⟩)

/-- Keys of C41 that Python keeps apart: two NaNs, two secure strings of one text, and dates of different instants. -/
example (v : PVal) (t : PyStr) : KeysOk [(.prim (.float .double .nan), v), (.prim (.float .double .nan), v),
    (.prim (.secure t), v), (.prim (.secure t), v), (.prim (.date (tickDate 0)), v),
    (.prim (.date ⟨2024, 2, 29, 10, 0, 0, 0, 0, none⟩), v)] := by
  unfold KeysOk
  simp [PVal.IsPlain, PVal.hashClass, tickDate]

set_option exponentiation.threshold 3000 in
/-- 1, 1.0 and 1.00 are one key. -/
example : SameKey (.prim (.int .psInt 1)) (.prim (.float .double (.finite false (2 ^ 1074)))) ∧
    SameKey (.prim (.int .psInt 1)) (.prim (.decimal (.finite false 100 (-2)))) := by
  refine ⟨.number .int ?_, .number .int ?_⟩
  · have : floatValue false (2 ^ 1074) = ((1 : Int) : Rat) := by decide +kernel
    rw [← this]; exact .float
  · have : decimalValue false 100 (-2) = ((1 : Int) : Rat) := by decide +kernel
    rw [← this]; exact .decimal

/-- C69, enums: a value of an enum type of the library, whatever integer element it is in, whatever further type names and
string form it has, is read as the member of the class that stands for the type; a value the type does not have is refused. -/
theorem C69_enum (E : TextEnv) (n : Nat) (e : EnumType) (he : e ∈ enumTypes) (ref : Attrs) (tn : PyStr) (more : List PyStr)
    (str : Option PyStr) (hstr : ∀ u ∈ str, ∃ w, deserializeString u = .ok w) (k : IntKind) (t : PyStr) (v : Nat)
    (hv : IntegerText v t) (hr : k.InRange v) (s : DState) :
    (e.Has v → ∃ b d s', deser E library (n + 2) (enumXml ref tn e.name more str k t) s = .ok (.ref b, s') ∧
      s'.heap[b]? = some d ∧ d.cls = some e.cls ∧ d.data = .prim (.int .psInt v)) ∧
    (¬ e.Has v → deser E library (n + 2) (enumXml ref tn e.name more str k t) s = .error .valueError) := by
  obtain ⟨m, h1, h2, h3⟩ := enum_start e he more
  obtain ⟨h4, h5⟩ := read_enum E library n ref tn e.name more str k t v hv hr hstr e.cls m h1 h2 s
  exact ⟨fun h => h4 _ ((h3 v).1 h), fun h => h5 ((h3 v).2 h)⟩

/-- Two flags of `RemoteStreamOptions` in one value. -/
example (E : TextEnv) (s : DState) : ∃ b d s', deser E library 2
    (enumXml {} (natStr 0) (txt! "System.Management.Automation.RemoteStreamOptions") [] (some (txt! "5")) .psInt64 (txt! "5")) s =
      .ok (.ref b, s') ∧ s'.heap[b]? = some d ∧ d.cls = some (txt! "RemoteStreamOptions") ∧ d.data = .prim (.int .psInt 5) := by
  have he : (⟨txt! "System.Management.Automation.RemoteStreamOptions", txt! "RemoteStreamOptions", true,
    [0, 1, 2, 4, 8, 15]⟩ : EnumType) ∈ enumTypes := by unfold enumTypes; simp
  refine (C69_enum E 0 _ he {} (natStr 0) [] (some (txt! "5")) ?_ .psInt64 (txt! "5") 5 ?_ ?_ s).1 ?_
  · intro u hu; cases hu; exact ⟨txt! "5", by decide +kernel⟩
  · exact (intOfText_iff _ _).mp (by decide +kernel)
  · unfold IntKind.InRange; decide
  · exact (flags_iff 15 [0, 1, 2, 4, 8, 15] rfl 5).mp (by decide)

/-- The type that is missing in the list: its class is declared with the name of another type (C59), so its values are
read as ints that are no members, and a value the type does not have is accepted. -/
theorem C69_enum_violated (E : TextEnv) (n : Nat) : ∃ b d s', deser E library (n + 2)
    (enumXml {} (natStr 0) (txt! "System.Management.Automation.Host.BufferCellType") [] none .psInt (natStr 77)) {} =
      .ok (.ref b, s') ∧ s'.heap[b]? = some d ∧ d.cls = some (txt! "PSInt") ∧ d.data = .prim (.int .psInt 77) ∧
      d.types = [txt! "Deserialized.System.Management.Automation.Host.BufferCellType"] := by
  rw [library_loaded]
  exact ⟨_, _, _, rfl, rfl, rfl, rfl, rfl⟩

end Verif
