import Verif.Spec.Extent
import Verif.Proof.Records

/-! # C74: the text of an extent -/

namespace Verif

variable {V : Type}

theorem Columns.unique {line : PyStr} {first last : Int} {s t : PyStr} (hs : Columns line first last s)
    (ht : Columns line first last t) : s = t :=
  List.ext_getElem? fun k => Option.ext fun x => (hs k x).trans (ht k x).symm

theorem columns_slice (line : PyStr) (i j : Nat) : Columns line (i + 1) j (slice line i j) := by
  intro k x
  have h1 : ((i : Int) + 1 + k - 1).toNat = i + k := by omega
  simp only [slice, AtColumn, List.getElem?_drop, List.getElem?_take, h1]
  by_cases h : i + k < j
  · simp only [h, ↓reduceIte]
    exact ⟨fun hx => ⟨⟨by omega, hx⟩, by omega⟩, fun hx => hx.1.2⟩
  · simp only [h, ↓reduceIte]
    exact ⟨fun hx => (by cases hx), fun hx => absurd hx.2 (by omega)⟩

theorem columns_drop (line : PyStr) (n : Nat) : Columns line (n + 1) line.length (line.drop n) := by
  have h := columns_slice line n line.length
  rwa [slice, List.take_length] at h

/-- C74: when the text of an extent can be had. -/
theorem C74_raises (e : ScriptExtent) : (∃ t, e.text = .ok t) ↔ e.Measurable := text_iff e

/-- C74 for an extent within one line, with the end column included: the text is what the line has in
the columns of the extent. A column before the first is taken for the first. -/
theorem C74_line_partial (e : ScriptExtent) (line : PyStr) (start stop : Int) (h1 : e.start.text = some line)
    (h2 : e.start.column = some start) (h3 : e.stop.column = some stop) (h4 : e.start.line = e.stop.line) :
    ∃ t, e.text = .ok t ∧ Columns line (max start 1) stop t := by
  unfold ScriptExtent.text
  rw [h3]
  by_cases hs : stop < 1
  · simp only [hs, ↓reduceIte]
    refine ⟨[], rfl, fun k x => ⟨fun h => (by cases h), fun h => absurd h.2 (by omega)⟩⟩
  · simp only [hs, h4, ↓reduceIte, h1, h2]
    refine ⟨_, rfl, ?_⟩
    have h := columns_slice line (max (start - 1) 0).toNat stop.toNat
    have e1 : (((max (start - 1) 0).toNat : Int) + 1) = max start 1 := by omega
    have e2 : ((stop.toNat : Nat) : Int) = stop := by omega
    rwa [e1, e2] at h

/-- C74 for the extent a receiver makes of the name of the script and the line, when none was sent: the
text is the line from the given offset to its end. -/
theorem C74_made (root : PyStr → PyStr) (r r' : InformationalRecord V) (i j : InvocationInfo V)
    (line : PyStr) (offset : Int) (hs : r.Sends i) (hp : i.displayScriptPosition = none)
    (hl : i.line = some line) (ho : i.offsetInLine = some offset) (ht : r.trip root = .ok r')
    (hj : r'.invocationInfo = some j) :
    ∃ e t, j.displayScriptPosition = some e ∧ e.text = .ok t ∧ Columns line (max offset 1) line.length t := by
  rw [informational_sent root r i hs] at ht
  cases ha : infoArrived root i with
  | error x => rw [ha] at ht; cases ht
  | ok j' =>
    rw [ha] at ht
    cases ht
    cases hj
    have hpl := (infoArrived_place root i j ha).1
    simp only [placeArrived, hp, hl, ho, Option.getD_some] at hpl
    refine ⟨lineExtent (i.scriptName.getD []) i.scriptLineNumber (some offset) line, ?_⟩
    by_cases hn : line = []
    · subst hn
      obtain ⟨t, h1, h2⟩ := C74_line_partial (lineExtent (i.scriptName.getD []) i.scriptLineNumber (some offset) [])
        [] offset offset rfl rfl rfl rfl
      refine ⟨t, hpl, h1, fun k x => ?_⟩
      rw [h2 k x]
      exact ⟨fun h => absurd h.1.2 (by simp), fun h => absurd h.1.2 (by simp)⟩
    · obtain ⟨t, h1, h2⟩ := C74_line_partial (lineExtent (i.scriptName.getD []) i.scriptLineNumber (some offset) line)
        line offset (line.length + 1) rfl rfl (by simp only [lineExtent, hn, ↓reduceIte])
        (by simp only [lineExtent, hn, ↓reduceIte])
      refine ⟨t, hpl, h1, fun k x => ?_⟩
      rw [h2 k x]
      refine ⟨fun h => ⟨h.1, ?_⟩, fun h => ⟨h.1, by omega⟩⟩
      obtain ⟨ha, hb⟩ := h.1
      have := (List.getElem?_eq_some_iff.1 hb).1
      omega

/-- C74 across lines, what comes instead: the first line behind the start column and the last line
*behind* the end column. -/
theorem C74_lines_partial (e : ScriptExtent) (first last : PyStr) (start stop : Int)
    (h1 : e.start.text = some first) (h2 : e.stop.text = some last) (h3 : e.start.column = some start)
    (h4 : e.stop.column = some stop) (h5 : e.start.line ≠ e.stop.line) (h6 : 1 ≤ stop) :
    ∃ a b, e.text = .ok (a ++ txt! "..." ++ b) ∧ Columns last (stop + 1) last.length b ∧
      (0 ≤ start → Columns first (start + 1) first.length a) ∧
      (start < 0 → a <:+ first ∧ a.length = min first.length (-start).toNat) := by
  have hs : ¬ stop < 1 := by omega
  refine ⟨tailFrom first (some start), tailFrom last (some stop), ?_, ?_, ?_, ?_⟩
  · unfold ScriptExtent.text
    rw [h4]
    simp only [hs, h5, ↓reduceIte, h1, h2, h3]
  · obtain ⟨n, rfl⟩ := Int.eq_ofNat_of_zero_le (show 0 ≤ stop by omega)
    exact columns_drop last n
  · intro h
    obtain ⟨n, rfl⟩ := Int.eq_ofNat_of_zero_le h
    exact columns_drop first n
  · intro h
    obtain ⟨n, rfl⟩ := Int.eq_negSucc_of_lt_zero h
    refine ⟨List.drop_suffix _ _, ?_⟩
    simp only [tailFrom, List.length_drop]
    omega

theorem acrossLines_head {first last t : PyStr} {stop : Int} (h : AcrossLines first 1 last stop t) :
    first <+: t := by
  obtain ⟨a, b, rfl, ha, _⟩ := h
  have h0 := columns_drop first 0
  rw [List.drop_zero] at h0
  rw [Columns.unique ha h0, List.append_assoc]
  exact List.prefix_append _ _

/-- C74 fails for extents across lines: from the beginning of `if ($x) {` to the `}` in the line
`} # end`, the text begins behind the first character and ends with what follows the extent. -/
theorem C74_lines_violated : ∃ (e : ScriptExtent) (first last t : PyStr),
    e.start.text = some first ∧ e.start.line = some 1 ∧ e.start.column = some 1 ∧
    e.stop.text = some last ∧ e.stop.line = some 2 ∧ e.stop.column = some 1 ∧ e.text = .ok t ∧
    first = txt! "if ($x) {" ∧ last = txt! "} # end" ∧ t = txt! "f ($x) {... # end" ∧
    ¬ ∃ stop, AcrossLines first 1 last stop t := by
  refine ⟨⟨{ line := some 1, column := some 1, text := some (txt! "if ($x) {") },
    { line := some 2, column := some 1, text := some (txt! "} # end") }⟩, _, _, _, rfl, rfl, rfl, rfl, rfl,
    rfl, rfl, rfl, rfl, rfl, fun ⟨_, h⟩ => absurd (acrossLines_head h) (by decide +kernel)⟩

/-- C74 fails for every extent within one line if the end is the column behind the extent, as it is where
a receiver makes one (/repo/src/psrpcore/types/_complex.py:614): the text has a character too many. -/
theorem C74_end_violated (e : ScriptExtent) (line : PyStr) (start stop : Int) (h1 : e.start.text = some line)
    (h2 : e.start.column = some start) (h3 : e.stop.column = some stop) (h4 : e.start.line = e.stop.line)
    (h5 : 1 ≤ start) (h6 : start ≤ stop) (h7 : stop ≤ line.length) :
    ∃ t, e.text = .ok t ∧ ¬ Columns line start (stop - 1) t := by
  obtain ⟨t, ht, hc⟩ := C74_line_partial e line start stop h1 h2 h3 h4
  refine ⟨t, ht, fun hd => ?_⟩
  have hm : max start 1 = start := by omega
  rw [hm] at hc
  have hlt : (stop - 1).toNat < line.length := by omega
  have hk : start + ((stop - start).toNat : Int) = stop := by omega
  have hx := (hc (stop - start).toNat line[(stop - 1).toNat]).2
    ⟨⟨by omega, by rw [hk]; exact List.getElem?_eq_getElem hlt⟩, by omega⟩
  have := ((hd _ _).1 hx).2
  omega

/-! ## Examples -/

/-- `Get-Item` in `    Get-Item -Path x`. -/
example : (ScriptExtent.mk { line := some 3, column := some 5, text := some (txt! "    Get-Item -Path x") }
    { line := some 3, column := some 12, text := some (txt! "    Get-Item -Path x") }).text =
    .ok (txt! "Get-Item") := rfl

example : (ScriptExtent.mk { line := some 3, column := some 5, text := some (txt! "    Get-Item -Path x") }
    { line := some 3, column := some 12, text := some (txt! "    Get-Item -Path x") }).Measurable :=
  ⟨12, rfl, fun _ => ⟨by nofun, fun _ => by nofun, fun h => absurd rfl h⟩⟩

/-- The line of the call without an extent: what `C74_made` asks for. -/
example (root : PyStr → PyStr) : ∃ (r r' : InformationalRecord Nat) (i j : InvocationInfo Nat),
    r.Sends i ∧ i.displayScriptPosition = none ∧ i.line = some (txt! "  Get-Item") ∧
    i.offsetInLine = some 3 ∧ r.trip root = .ok r' ∧ r'.invocationInfo = some j :=
  ⟨writeInformational (txt! "m") (some {
      commandOrigin := some 0
      line := some (txt! "  Get-Item")
      offsetInLine := some 3 }) none, _, _, _, ⟨rfl, rfl⟩, rfl, rfl, rfl, rfl, rfl⟩

/-- An extent across lines whose start counts from the end. -/
example : (ScriptExtent.mk { line := some 1, column := some (-3), text := some (txt! "if ($x) {") }
    { line := some 2, column := some 1, text := some (txt! "}") }).text = .ok (txt! ") {...") := rfl

end Verif
