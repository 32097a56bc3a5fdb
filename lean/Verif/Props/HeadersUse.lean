import Verif.Proofs.Fits
/-
C93, continued: a generated header has one meaning, its numbers fit in the types of the arrays, and the library that is compiled with it answers
what the file of the database says.
-/
namespace Ystring
open Gen Spec

/-- C93: a text declares at most one list of arrays. -/
theorem C93_unambiguous (text : Txt) (ds es : List Decl) (h1 : Declares text ds) (h2 : Declares text es) : ds = es := by
  obtain ⟨lines, cs, rfl, hl, hne, hc, ht⟩ := h1
  obtain ⟨lines', cs', e, hl', hne', hc', ht'⟩ := h2
  have : lines = lines' := by
    rw [joinedBy_eq, joinedBy_eq] at e
    rw [← splitChar_join hl hne, e, splitChar_join hl' hne']
  subst this
  rw [ht] at ht'
  simp only [List.cons_append, List.nil_append, List.cons.injEq, true_and] at ht'
  exact decls_unique ds es cs cs' hc hc' ht'

theorem mem_pairs {k : CaseKind} {es : List Entry} {c w : Nat} : (c, w) ∈ k.pairs es ↔ ∃ e ∈ es, e.id = c ∧ k.field e = some w := by
  unfold CaseKind.pairs
  rw [List.mem_filterMap]
  constructor
  · rintro ⟨e, he, h⟩
    obtain ⟨w', h1, h2⟩ := Option.map_eq_some_iff.mp h
    simp only [Prod.mk.injEq] at h2
    exact ⟨e, he, h2.1, by rw [h1, h2.2]⟩
  · rintro ⟨e, he, rfl, h⟩
    exact ⟨e, he, by rw [h]; rfl⟩

theorem entry_unique {es : List Entry} (ha : es.Pairwise (fun a b => a.id < b.id)) {x y : Entry} (hx : x ∈ es) (hy : y ∈ es) (h : x.id = y.id) : x = y := by
  induction es with
  | nil => simp at hx
  | cons z l ih =>
    obtain ⟨hz, hl⟩ := List.pairwise_cons.mp ha
    rcases List.mem_cons.mp hx with rfl | hx' <;> rcases List.mem_cons.mp hy with rfl | hy'
    · rfl
    · exact absurd (hz _ hy') (by omega)
    · exact absurd (hz _ hx') (by omega)
    · exact ih hl hx' hy'

/-- C93: for every database in ascending order, the header for a case (upper, lower or title) that the script prints declares two arrays, whose numbers fit in 32 bits;
with these arrays the library converts every code point that has a mapping in the database to that mapping, and every other one to itself. -/
theorem C93_case_use (k : CaseKind) (date : Date) (es : List Entry) (file : Txt) (h : Database es file) (ha : es.Pairwise (fun a b => a.id < b.id))
    (hb : ∀ e ∈ es, e.id < 2 ^ 32 ∧ ∀ w, k.field e = some w → w < 2 ^ 32) :
    ∃ out compact mappings, caseMain date k.arg file = .ok out ∧ Declares out (caseHeader k compact mappings) ∧
      (∀ d ∈ caseHeader k compact mappings, d.Fits) ∧
      ∀ c : Char32, (∀ e ∈ es, e.id = c.toNat → (convert compact mappings c).toNat = (k.field e).getD c.toNat) ∧
        ((∀ e ∈ es, e.id ≠ c.toNat) → convert compact mappings c = c) := by
  obtain ⟨out, ho, hd⟩ := C93_case_header k date es file h (fun e he => (hb e he).1)
  have hp : (k.pairs es).Pairwise (fun a b => a.1 < b.1) := by
    unfold CaseKind.pairs
    rw [List.pairwise_filterMap]
    refine ha.imp ?_
    intro e e' hlt p hp q hq
    obtain ⟨_, _, rfl⟩ := Option.map_eq_some_iff.mp hp
    obtain ⟨_, _, rfl⟩ := Option.map_eq_some_iff.mp hq
    exact hlt
  have hpb : ∀ p ∈ k.pairs es, p.1 < 2 ^ 32 ∧ p.2 < 2 ^ 32 := by
    intro p hp
    obtain ⟨e, he, h1, h2⟩ := mem_pairs.mp (show (p.1, p.2) ∈ _ from hp)
    exact ⟨h1 ▸ (hb e he).1, (hb e he).2 _ h2⟩
  refine ⟨out, _, _, ho, hd, caseHeader_fits k _ hpb, ?_⟩
  intro c
  obtain ⟨c1, c2⟩ := C81_case_tables (k.pairs es) hp hpb c
  have huniq : ∀ e ∈ es, ∀ e' ∈ es, e.id = e'.id → e = e' := fun e he e' he' => entry_unique ha he he'
  constructor
  · intro e he hid
    cases hf : k.field e with
    | some w => exact c1 w (mem_pairs.mpr ⟨e, he, hid, hf⟩)
    | none =>
      rw [c2 ?_]; · rfl
      intro w hw
      obtain ⟨e', he', h1, h2⟩ := mem_pairs.mp hw
      rw [huniq e he e' he' (by omega)] at hf
      rw [hf] at h2; cases h2
  · intro hno
    refine c2 ?_
    intro w hw
    obtain ⟨e, he, h1, _⟩ := mem_pairs.mp hw
    exact hno e he h1

theorem database_line {es : List Entry} {file : Txt} (h : Database es file) : ∀ e ∈ es, ∃ line, IsLine line e := by
  induction h with
  | nil => intro e he; simp at he
  | cons hl _ ih =>
    intro e he
    rcases List.mem_cons.mp he with rfl | he
    · exact ⟨_, hl⟩
    · exact ih e he

theorem database_category {es : List Entry} {file : Txt} (h : Database es file) : ∀ e ∈ es, 1 ≤ e.category ∧ e.category ≤ 30 := by
  intro e he
  obtain ⟨line, hl⟩ := database_line h e he
  obtain ⟨f0, f1, f2, f3, f4, f5, f6, f7, f8, f9, f10, f11, f12, f13, f14, _, _, _, ⟨hc1, hc2⟩, _⟩ := hl
  refine ⟨hc1, ?_⟩
  have := (List.getElem?_eq_some_iff.mp hc2).1
  have hlen : CATEGORIES.length = 30 := by decide
  omega

/-- C93: for every database in ascending order that has all of ASCII, the header that the script prints declares two arrays, whose numbers fit in 8 and 32 bits; with these
arrays the library gives every code point of the database its category, code points between two lines the category Cn (or, when the second line is one of the ends of
ranges known to the script, that of the two lines), and code points after the last line the category Cn. -/
theorem C93_class_use (date : Date) (es : List Entry) (file : Txt) (h : Database es file) (ha : es.Pairwise (fun a b => a.id < b.id))
    (hb : ∀ e ∈ es, e.id < 2 ^ 21) (h128 : ∀ i < 128, ∃ e ∈ es, e.id = i) :
    ∃ out ascii all, classMain date file = .ok out ∧ Declares out (classHeader ascii all) ∧ (∀ d ∈ classHeader ascii all, d.Fits) ∧
      ∀ c : Char32, c.toNat < 2 ^ 21 →
        let cls := (charClassShiftIn ascii all c).toNat + 1
        (∀ e ∈ es, e.id = c.toNat → cls = e.category) ∧
        (∀ l1 x y l2, es = l1 ++ x :: y :: l2 → x.id < c.toNat → c.toNat < y.id →
          cls = if y.id ∈ KNOWN_RANGES ∧ x.category = y.category then y.category else 30) ∧
        ((∀ e ∈ es, e.id < c.toNat) → cls = 30) := by
  obtain ⟨e0, he0, _⟩ := h128 0 (by decide)
  obtain ⟨out, ho, hd⟩ := C93_class_header date es file h (List.ne_nil_of_mem he0)
  have hp : (es.map (fun e => (e.id, e.category))).Pairwise (fun a b => a.1 < b.1) := by
    rw [List.pairwise_map]; exact ha
  have hk : ∀ l ∈ es.map (fun e => (e.id, e.category)), l.1 < 2 ^ 21 ∧ 1 ≤ l.2 ∧ l.2 ≤ 30 := by
    intro l hl
    obtain ⟨e, he, rfl⟩ := List.mem_map.mp hl
    exact ⟨hb e he, database_category h e he⟩
  refine ⟨out, _, _, ho, hd, classHeader_fits _ hp hk, ?_⟩
  intro c hc
  obtain ⟨c1, c2, c3⟩ := C82_class_tables KNOWN_RANGES _ hp hk (fun i hi => by
    obtain ⟨e, he, rfl⟩ := h128 i hi
    exact ⟨e.category, List.mem_map.mpr ⟨e, he, rfl⟩⟩) c hc
  refine ⟨?_, ?_, ?_⟩
  · intro e he hid
    exact c1 e.category (List.mem_map.mpr ⟨e, he, by rw [hid]⟩)
  · rintro l1 x y l2 rfl hx hy
    exact c2 (l1.map (fun e => (e.id, e.category))) (x.id, x.category) (y.id, y.category) (l2.map (fun e => (e.id, e.category))) (by simp) hx hy
  · intro hlt
    refine c3 ?_
    intro l hl
    obtain ⟨e, he, rfl⟩ := List.mem_map.mp hl
    exact hlt e he

/-- C93: for every database in ascending order whose canonical pairs lie below 2^20 (and whose code points with a pair are at least U+00C0), the header that the script
prints declares two arrays, whose numbers fit in 64 bits; with the first the library decomposes every code point that has a pair into that pair, and no other code point. -/
theorem C93_normalization_use (date : Date) (es : List Entry) (file : Txt) (h : Database es file) (ha : es.Pairwise (fun a b => a.id < b.id))
    (hb : ∀ e ∈ es, ∀ a b, e.tagged = false → e.decomposition = [a, b] → 0xC0 ≤ e.id ∧ e.id < 2 ^ 20 ∧ a < 2 ^ 20 ∧ b < 2 ^ 20) :
    ∃ out decomposed composed, normalizationMain date file = .ok out ∧ Declares out (normalizationHeader decomposed composed) ∧
      (∀ d ∈ normalizationHeader decomposed composed, d.Fits) ∧
      ∀ c : Char32,
        (∀ e ∈ es, e.id = c.toNat → ∀ a b, e.tagged = false → e.decomposition = [a, b] →
          findDecomposedIn decomposed c = (UInt32.ofNat a, UInt32.ofNat b)) ∧
        ((∀ e ∈ es, e.id = c.toNat → ∀ a b, ¬ (e.tagged = false ∧ e.decomposition = [a, b])) → findDecomposedIn decomposed c = (c, 0)) := by
  obtain ⟨out, ho, hd⟩ := C93_normalization_header date es file h
  let lines : List DecompLine := es.map (fun e => ⟨e.id, e.tagged, e.decomposition⟩)
  have hp : lines.Pairwise (fun p q => p.id < q.id) := by
    rw [List.pairwise_map]; exact ha
  have hpb : ∀ l ∈ lines, ∀ c a b, IsPair l c a b → 0xC0 ≤ c ∧ c < 2 ^ 20 ∧ a < 2 ^ 20 ∧ b < 2 ^ 20 := by
    intro l hl c a b hpair
    obtain ⟨e, he, rfl⟩ := List.mem_map.mp hl
    obtain ⟨rfl, h2, h3⟩ := hpair
    exact hb e he a b h2 h3
  have hf : ∀ r ∈ getRules lines, RuleFits r := by
    intro r hr
    obtain ⟨l, hl, hh⟩ := mem_getRules.mp hr
    have := hpb l hl _ _ _ hh
    exact ⟨this.2.1, this.2.2.1, this.2.2.2⟩
  refine ⟨out, _, _, ho, hd, normalizationHeader_fits _ hf, ?_⟩
  intro c
  obtain ⟨c1, c2⟩ := C83_decomposition lines hp hpb c
  constructor
  · intro e he hid a b h1 h2
    exact c1 ⟨e.id, e.tagged, e.decomposition⟩ (List.mem_map.mpr ⟨e, he, rfl⟩) a b ⟨hid, h1, h2⟩
  · intro hno
    refine c2 ?_
    intro l hl a b hpair
    obtain ⟨e, he, rfl⟩ := List.mem_map.mp hl
    exact hno e he hpair.1 a b ⟨hpair.2.1, hpair.2.2⟩

/-! ### A small database -/

/-- Four lines of the file: two letters with mappings, one with a canonical pair, one with a compatibility decomposition. -/
def sampleFile : Txt :=
  t!"0041;LATIN CAPITAL LETTER A;Lu;0;L;;;;;N;;;;0061;\n" ++ (t!"0061;LATIN SMALL LETTER A;Ll;0;L;;;;;N;;;0041;;0041\n" ++
    (t!"00E0;LATIN SMALL LETTER A WITH GRAVE;Ll;0;L;0061 0300;;;;N;LATIN SMALL LETTER A GRAVE;;00C0;;00C0\n" ++
      t!"2460;CIRCLED DIGIT ONE;No;0;ON;<circle> 0031;;1;1;N;;;;;\n"))

/-- What they say. -/
def sampleEntries : List Entry := [
  ⟨0x41, 1, false, [], none, some 0x61, none⟩,
  ⟨0x61, 2, false, [], some 0x41, none, some 0x41⟩,
  ⟨0xE0, 2, false, [0x61, 0x300], some 0xC0, none, some 0xC0⟩,
  ⟨0x2460, 11, true, [], none, none, none⟩]

theorem sampleFile_database : Database sampleEntries sampleFile := by
  have e : sampleFile = t!"0041;LATIN CAPITAL LETTER A;Lu;0;L;;;;;N;;;;0061;" ++ '\n' :: (t!"0061;LATIN SMALL LETTER A;Ll;0;L;;;;;N;;;0041;;0041" ++ '\n' ::
      (t!"00E0;LATIN SMALL LETTER A WITH GRAVE;Ll;0;L;0061 0300;;;;N;LATIN SMALL LETTER A GRAVE;;00C0;;00C0" ++ '\n' ::
        (t!"2460;CIRCLED DIGIT ONE;No;0;ON;<circle> 0031;;1;1;N;;;;;" ++ '\n' :: []))) := by decide +kernel
  rw [e]
  refine .cons ?_ (.cons ?_ (.cons ?_ (.cons ?_ .nil)))
  · exact ⟨t!"0041", t!"LATIN CAPITAL LETTER A", t!"Lu", t!"0", t!"L", [], [], [], [], t!"N", [], [], [], t!"0061", [], by decide +kernel, by decide +kernel, by decide +kernel,
      ⟨by decide, by decide +kernel⟩, ⟨[], rfl, rfl⟩, rfl, show hexValue _ = _ by decide +kernel, rfl⟩
  · exact ⟨t!"0061", t!"LATIN SMALL LETTER A", t!"Ll", t!"0", t!"L", [], [], [], [], t!"N", [], [], t!"0041", [], t!"0041", by decide +kernel, by decide +kernel, by decide +kernel,
      ⟨by decide, by decide +kernel⟩, ⟨[], rfl, rfl⟩, show hexValue _ = _ by decide +kernel, rfl, show hexValue _ = _ by decide +kernel⟩
  · exact ⟨t!"00E0", t!"LATIN SMALL LETTER A WITH GRAVE", t!"Ll", t!"0", t!"L", t!"0061 0300", [], [], [], t!"N", t!"LATIN SMALL LETTER A GRAVE", [], t!"00C0", [], t!"00C0",
      by decide +kernel, by decide +kernel, by decide +kernel, ⟨by decide, by decide +kernel⟩, ⟨[t!"0061", t!"0300"], by decide +kernel, by decide +kernel⟩,
      show hexValue _ = _ by decide +kernel, rfl, show hexValue _ = _ by decide +kernel⟩
  · exact ⟨t!"2460", t!"CIRCLED DIGIT ONE", t!"No", t!"0", t!"ON", t!"<circle> 0031", [], t!"1", t!"1", t!"N", [], [], [], [], [], by decide +kernel, by decide +kernel,
      by decide +kernel, ⟨by decide, by decide +kernel⟩, ⟨t!"circle> 0031", by decide +kernel⟩, rfl, rfl, rfl⟩

/-- The other hypotheses of C93_case_use and of C93_normalization_use hold for it. -/
example : sampleEntries.Pairwise (fun a b => a.id < b.id) ∧
    (∀ e ∈ sampleEntries, e.id < 2 ^ 32 ∧ (e.upper.getD 0 < 2 ^ 32 ∧ e.lower.getD 0 < 2 ^ 32 ∧ e.title.getD 0 < 2 ^ 32)) ∧
    (∀ e ∈ sampleEntries, e.tagged = false → e.decomposition ≠ [] → 0xC0 ≤ e.id ∧ e.id < 2 ^ 20 ∧ ∀ x ∈ e.decomposition, x < 2 ^ 20) := by
  decide +kernel

/-- The script for normalization prints, for this database, arrays with one number each. -/
example : ∃ out, normalizationMain ⟨2024, 9, 26⟩ sampleFile = .ok out ∧
    Declares out (normalizationHeader [0xE00006100300] [0x6100300000E0]) := by
  have h := C93_normalization_header ⟨2024, 9, 26⟩ _ _ sampleFile_database
  have e : getRules (sampleEntries.map (fun e => ⟨e.id, e.tagged, e.decomposition⟩)) = [(0xE0, 0x61, 0x300)] := by decide +kernel
  rw [e] at h
  have e1 : decomposedTable [(0xE0, 0x61, 0x300)] = [0xE00006100300] := by decide +kernel
  have e2 : composedTable [(0xE0, 0x61, 0x300)] = [0x6100300000E0] := by
    unfold composedTable
    rw [List.mergeSort_singleton]
    decide +kernel
  rwa [e1, e2] at h

/-- A database of the ASCII characters: letters, digits and others. -/
def asciiEntry (i : Nat) : Entry :=
  ⟨i, if 65 ≤ i ∧ i ≤ 90 then 1 else if 97 ≤ i ∧ i ≤ 122 then 2 else if 48 ≤ i ∧ i ≤ 57 then 9 else 18, false, [], none, none, none⟩

/-- Its lines. -/
def asciiFields (i : Nat) : List Txt :=
  [['0', '0', hexDigit (i / 16), hexDigit (i % 16)], t!"NAME",
    if 65 ≤ i ∧ i ≤ 90 then t!"Lu" else if 97 ≤ i ∧ i ≤ 122 then t!"Ll" else if 48 ≤ i ∧ i ≤ 57 then t!"Nd" else t!"Po",
    t!"0", t!"L", [], [], [], [], t!"N", [], [], [], [], []]
where
  hexDigit (d : Nat) : Char := (t!"0123456789ABCDEF").getD d '?'

theorem asciiLine (i : Nat) (hi : i < 128) : IsLine (joinTxt [';'] (asciiFields i)) (asciiEntry i) := by
  have hs : ∀ i < 128, (∀ f ∈ asciiFields i, ';' ∉ f ∧ '\n' ∉ f) ∧ hexValue ((asciiFields i).getD 0 []) = some (asciiEntry i).id ∧
      1 ≤ (asciiEntry i).category ∧ CATEGORIES[(asciiEntry i).category - 1]? = some ((asciiFields i).getD 2 []) := by decide +kernel
  obtain ⟨h1, h2, h3⟩ := hs i hi
  rw [← joinedBy_eq]
  exact ⟨_, _, _, _, _, _, _, _, _, _, _, _, _, _, _, rfl, h1, h2, h3, ⟨[], rfl, rfl⟩, rfl, rfl, rfl⟩

/-- The hypotheses of C93_class_use hold for the ASCII characters. -/
example : (∃ file, Database ((List.range 128).map asciiEntry) file) ∧ ((List.range 128).map asciiEntry).Pairwise (fun a b => a.id < b.id) ∧
    (∀ e ∈ (List.range 128).map asciiEntry, e.id < 2 ^ 21) ∧ ∀ i < 128, ∃ e ∈ (List.range 128).map asciiEntry, e.id = i := by
  refine ⟨?_, by decide +kernel, by decide +kernel, by decide +kernel⟩
  have : ∀ l : List Nat, (∀ i ∈ l, i < 128) → ∃ file, Database (l.map asciiEntry) file := by
    intro l
    induction l with
    | nil => exact fun _ => ⟨[], .nil⟩
    | cons i l ih =>
      intro h
      obtain ⟨file, hf⟩ := ih (fun j hj => h j (.tail _ hj))
      exact ⟨_, .cons (asciiLine i (h i (.head _))) hf⟩
  exact this _ (fun i hi => List.mem_range.mp hi)

end Ystring
