import Verif.Props.Output
import Verif.Props.Shipped

/-!
# C87: the commands that regenerate the files of the repository, and running the program again

The arguments are those of the aliases in `make_pluralrules/.cargo/config:2-3` and `intl_pluralrules/.cargo/config:2`.
-/

namespace Verif.Props
open Verif Api Rust Generate GenPr GenRs RulesRead FileRead Resource Main Utf8

/-- make_pluralrules/.cargo/config:2 (`cargo regenerate_fixtures`). -/
def regenerateFixtures : Args :=
  { inputs := [c!"./tests/fixtures/cldr_pluralrules_cardinals_33.json", c!"./tests/fixtures/cldr_pluralrules_ordinals_33.json"],
    output := c!"./tests/fixtures/cldr_pluralrules_33.rs", ugly := true }

/-- make_pluralrules/.cargo/config:3 (`cargo regenerate_fixtures_within`). -/
def regenerateFixturesWithin : Args :=
  { inputs := [c!"./tests/fixtures/cldr_pluralrules_within_test.json"],
    output := c!"./tests/fixtures/cldr_pluralrules_within_test.rs", ugly := true }

/-- intl_pluralrules/.cargo/config:2 (`cargo regenerate-data`). -/
def regenerateData : Args :=
  { inputs := [c!"./cldr_data/cldr_pluralrules_cardinals.json", c!"./cldr_data/cldr_pluralrules_ordinals.json"],
    output := c!"./src/rules.rs", ugly := false }

/-- The output file can be created, and there is room for any text. -/
def Writable (sys : System) (args : Args) : Prop := sys.canCreate args.output = true ∧ sys.room = none

theorem run_of_texts (sys : System) (args : Args) (files : Files) (texts : List Str) (out : Str) (hw : Writable sys args)
    (ht : List.Forall₂ (fun p s => files p = some (encode s)) args.inputs texts) (hg : generateText LangId.parse texts = some out) :
    run sys args files = format sys args (setFile files args.output (encode out)) := by
  rw [run, (readAll_iff files _ _).2 ht]
  simp only [hg, writeOutput, hw.1, hw.2, if_true]

theorem setFile_same (files : Files) (p : Str) (b : Bytes) (h : files p = some b) : setFile files p b = files := by
  funext q
  unfold setFile
  split
  · next hq => rw [hq, h]
  · rfl

/-- C87: on the files of the repository the commands for the fixtures end well and change nothing. -/
theorem C87_fixtures (sys : System) (files : Files) (hw : Writable sys regenerateFixtures)
    (h1 : files c!"./tests/fixtures/cldr_pluralrules_cardinals_33.json" = some (encode Fixtures.cardinals33))
    (h2 : files c!"./tests/fixtures/cldr_pluralrules_ordinals_33.json" = some (encode Fixtures.ordinals33))
    (h3 : files c!"./tests/fixtures/cldr_pluralrules_33.rs" = some (encode Fixtures.out33)) :
    run sys regenerateFixtures files = (.ok, files) := by
  rw [run_of_texts sys _ files _ _ hw (.cons h1 (.cons h2 .nil)) C62_fixtures.1]
  simp only [regenerateFixtures, format, if_true, setFile_same files _ _ h3]

theorem C87_fixtures_within (sys : System) (files : Files) (hw : Writable sys regenerateFixturesWithin)
    (h1 : files c!"./tests/fixtures/cldr_pluralrules_within_test.json" = some (encode Fixtures.within))
    (h2 : files c!"./tests/fixtures/cldr_pluralrules_within_test.rs" = some (encode Fixtures.outWithin)) :
    run sys regenerateFixturesWithin files = (.ok, files) := by
  rw [run_of_texts sys _ files _ _ hw (.cons h1 .nil) C62_fixtures.2]
  simp only [regenerateFixturesWithin, format, if_true, setFile_same files _ _ h2]

/-- C87: `regenerate-data` leaves what `rustfmt` makes of a text that has the same items as the shipped `rules.rs`, up to the order
of the first eight. -/
theorem C87_data (sys : System) (files : Files) (hw : Writable sys regenerateData) (fmt : Str → Files → Files) (hf : sys.rustfmt = some fmt)
    (h1 : files c!"./cldr_data/cldr_pluralrules_cardinals.json" = some (encode CldrText.cardinals))
    (h2 : files c!"./cldr_data/cldr_pluralrules_ordinals.json" = some (encode CldrText.ordinals)) :
    ∃ out items, run sys regenerateData files = (.ok, fmt c!"./src/rules.rs" (setFile files c!"./src/rules.rs" (encode out))) ∧
      readFile (lex out) = some items ∧ items.Perm shippedItems ∧ items.drop 8 = shippedItems.drop 8 := by
  obtain ⟨out, items, hg, h⟩ := C61_regenerated
  refine ⟨out, items, ?_, h⟩
  rw [run_of_texts sys _ files _ _ hw (.cons h1 (.cons h2 .nil)) hg]
  simp only [regenerateData, format, Bool.false_eq_true, if_false, hf]

theorem run_ok (sys : System) (args : Args) (files files' : Files) (h : run sys args files = (.ok, files')) :
    ∃ texts out, List.Forall₂ (fun p s => files p = some (encode s)) args.inputs texts ∧ generateText LangId.parse texts = some out ∧
      (.ok, files') = format sys args (setFile files args.output (encode out)) ∧
      ∀ f : Files, (∀ p ∈ args.inputs, f p = files p) → run sys args f = format sys args (setFile f args.output (encode out)) := by
  rcases run_cases sys args files files' _ h with ⟨h, -⟩ | ⟨texts, out, h1, h2, ⟨h, -⟩ | ⟨h3, h4, h5⟩⟩
  · cases h
  · cases h
  · refine ⟨texts, out, h1, h2, h5, fun f hf => ?_⟩
    have hm : mapPanic (readToString f) args.inputs = some texts := by
      rw [readAll_iff]
      generalize args.inputs = l at h1 hf
      clear h h2 h5
      induction h1 with
      | nil => exact .nil
      | cons hp _ ih => exact .cons (by rw [hf _ (by simp), hp]) (ih fun p hp => hf p (by simp [hp]))
    have hlen : (encode out).length = out.length := by rw [C81_ascii _ _ _ h2, List.length_map]
    rw [run, hm]
    simp only [h2, writeOutput, h3, if_true]
    cases hr : sys.room with
    | none => rfl
    | some k =>
      have := h4 k hr
      simp only [hlen, this, if_true]

/-- C87: when the program ended well and the output file is not one of the inputs, running it again ends well and changes nothing.
Without `--ugly` this is for a `rustfmt` that changes only the file it is given. -/
theorem C87_again (sys : System) (args : Args) (files files' : Files) (hn : args.output ∉ args.inputs)
    (hf : args.ugly = true ∨ ∀ fmt f p q, sys.rustfmt = some fmt → q ≠ p → fmt p f q = f q)
    (h : run sys args files = (.ok, files')) : run sys args files' = (.ok, files') := by
  obtain ⟨texts, out, -, -, h1, h2⟩ := run_ok sys args files files' h
  have hother : ∀ q, q ≠ args.output → files' q = files q := by
    intro q hq
    unfold format at h1
    by_cases hu : args.ugly = true
    · simp only [hu, if_true, Prod.mk.injEq, true_and] at h1
      simp [h1, setFile, hq]
    · simp only [hu, Bool.false_eq_true, if_false] at h1
      cases hr : sys.rustfmt with
      | none => simp [hr] at h1
      | some fmt =>
        simp only [hr, Prod.mk.injEq, true_and] at h1
        rw [h1, hf.resolve_left hu fmt _ _ q hr hq]
        simp [setFile, hq]
  rw [h2 files' fun p hp => hother p fun he => hn (he ▸ hp)]
  have : setFile files' args.output (encode out) = setFile files args.output (encode out) := by
    funext q
    unfold setFile
    split
    · rfl
    · next hq => exact hother q hq
  rw [this, ← h1]

theorem generateText_start (texts : List Str) (out : Str) (hg : generateText LangId.parse texts = some out) : ∃ r, out = '#' :: r := by
  unfold generateText at hg
  cases hm : mapPanic parseResource texts with
  | none => simp [hm] at hg
  | some rs =>
    simp only [hm, generateRs] at hg
    cases ht : generateTokens LangId.parse rs with
    | none => simp [ht] at hg
    | some ts =>
      rw [ht, Option.map_some, Option.some.injEq] at hg
      obtain ⟨_, _, _, -, -, -, -, -, rfl⟩ := Lemmas.generateTokens_parts _ _ _ ht
      rw [← hg]
      exact ⟨_, rfl⟩

/-- C87: with `--ugly`, if the output file is also an input, running it again panics and changes nothing: the input is lost. -/
theorem C87_own_input (sys : System) (args : Args) (files files' : Files) (hn : args.output ∈ args.inputs) (hu : args.ugly = true)
    (h : run sys args files = (.ok, files')) : run sys args files' = (.panic, files') := by
  obtain ⟨texts, out, -, hg, h1, -⟩ := run_ok sys args files files' h
  obtain ⟨r, rfl⟩ := generateText_start _ _ hg
  simp only [format, hu, if_true, Prod.mk.injEq, true_and] at h1
  unfold run
  cases hm : mapPanic (readToString files') args.inputs with
  | none => rfl
  | some texts' =>
    have hr := (readAll_iff files' _ _).1 hm
    have hs : ∃ s ∈ texts', files' args.output = some (encode s) := by
      clear hm h
      generalize args.inputs = l at hn hr
      induction hr with
      | nil => simp at hn
      | cons h _ ih =>
        rcases List.mem_cons.1 hn with he | hp
        · exact ⟨_, by simp, he ▸ h⟩
        · obtain ⟨s, h1, h2⟩ := ih hp
          exact ⟨s, by simp [h1], h2⟩
    obtain ⟨s, hs1, hs2⟩ := hs
    have hs3 : s = '#' :: r := by
      rw [h1] at hs2
      simp only [setFile, if_true, Option.some.injEq] at hs2
      have := (C81_utf8 (encode ('#' :: r)) s).2 hs2
      rw [(C81_utf8 _ ('#' :: r)).2 rfl, Option.some.injEq] at this
      exact this.symm
    have hnone : generateText LangId.parse texts' = none := by
      unfold generateText
      rw [Prec.mapPanic_none.2 ⟨_, hs1, ?_⟩]
      have : Json.parse ('#' :: r) = none := rfl
      simp only [parseResource, hs3, this]
    simp only [hnone]

/-- A system and files for the cases above: every file has the text of `different_version_test` (`Props/RepoTests`) with right type
and identifier; the second run of the same command finds its own output as input, or another file. -/
example :
    let sys : System := { canCreate := fun _ => true, room := none, rustfmt := none }
    let text := c!"{\"supplemental\":{\"version\":{\"_number\":\"\",\"_unicodeVersion\":\"\",\"_cldrVersion\":\"0\"},\"plurals-type-cardinal\":{\"en\":{\"pluralRule-count-one\":\"n = 1\",\"pluralRule-count-other\":\"\"}}}}"
    let files : Files := fun p => if p = c!"a" then some (encode text) else none
    let twice (args : Args) := let r := run sys args files; (r.1, (run sys args r.2).1)
    twice ⟨[c!"a"], c!"a", true⟩ = (.ok, .panic) ∧ twice ⟨[c!"a"], c!"b", true⟩ = (.ok, .ok) := by decide +kernel

end Verif.Props
