import Verif.Props.Files
import Verif.Lemmas.Utf8
import Verif.Main

/-!
# C63, C81: the program `make_pluralrules`, from the bytes of the input files to the bytes of the output file
-/

namespace Verif.Props
open Verif Api Rust Uts35 Spec Parser Grammar Json Generate GenPr GenRs RulesRead FileRead Gen JsonSpec ResourceSpec Resource Main Utf8

/-! ## C81: bytes -/

/-- C81: the bytes of a character are those of RFC 3629, as Lean's own library has them. -/
theorem C81_encoding (c : Char) : encodeChar c = String.utf8EncodeChar c := Lemmas.encodeChar_core c

/-- C81: a file is read exactly if its bytes are UTF-8, and then the text is the one with these bytes. -/
theorem C81_utf8 (b : Bytes) (s : Str) : decode b = some s ↔ b = encode s :=
  ⟨Lemmas.encode_decode b s, fun h => h ▸ Lemmas.decode_encode s⟩

/-- One to four bytes; then what is not UTF-8: a byte that continues nothing, two bytes for a slash, a surrogate, a number above
10FFFF, and a character that ends too early. -/
example : decode [0x61, 0xC3, 0xA9, 0xE2, 0x82, 0xAC, 0xF0, 0x9F, 0x98, 0x80] = some c!"aé€😀" ∧ decode [0x80] = none ∧
    decode [0xC0, 0xAF] = none ∧ decode [0xED, 0xA0, 0x80] = none ∧ decode [0xF4, 0x90, 0x80, 0x80] = none ∧
    decode [0xE2, 0x82] = none := by decide +kernel

theorem readToString_iff (files : Files) (p s : Str) : readToString files p = some s ↔ files p = some (encode s) := by
  unfold readToString
  cases h : files p with
  | none => simp
  | some b => simp [C81_utf8]

theorem readAll_iff (files : Files) (ps texts : List Str) :
    mapPanic (readToString files) ps = some texts ↔ List.Forall₂ (fun p s => files p = some (encode s)) ps texts :=
  Lemmas.mapPanic_forall₂ (readToString_iff files) ps texts

theorem printable_generateText (parseId : Str → Option LangId) (texts : List Str) (out : Str)
    (h : generateText parseId texts = some out) : out.all Lemmas.printable = true := by
  unfold generateText at h
  cases hm : mapPanic parseResource texts with
  | none => simp [hm] at h
  | some rs =>
    simp only [hm, generateRs] at h
    cases ht : generateTokens parseId rs with
    | none => simp [ht] at h
    | some toks =>
      simp only [ht, Option.map_some, Option.some.injEq] at h
      rw [← h]; exact Lemmas.printable_render toks (Lemmas.generateTokens_clean parseId rs toks ht)

/-- C81: whatever the input files say, the output is one line of printable ASCII. -/
theorem C81_printable (parseId : Str → Option LangId) (texts : List Str) (out : Str) (h : generateText parseId texts = some out) :
    ∀ c ∈ out, 0x20 ≤ c.toNat ∧ c.toNat ≤ 0x7E := by
  intro c hc
  have := List.all_eq_true.1 (printable_generateText parseId texts out h) c hc
  simpa [Lemmas.printable] using this

/-- C81: so the output file has one byte for each character. -/
theorem C81_ascii (parseId : Str → Option LangId) (texts : List Str) (out : Str) (h : generateText parseId texts = some out) :
    encode out = out.map fun c => UInt8.ofNat c.toNat := by
  have hp := C81_printable parseId texts out h
  clear h
  induction out with
  | nil => rfl
  | cons c out ih =>
    rw [encode, List.flatMap_cons, ← encode, ih fun c hc => hp c (by simp [hc])]
    have := hp c (by simp)
    simp only [encodeChar, List.map_cons]
    rw [if_pos (by omega)]; rfl

/-- C81: a text that starts with a byte order mark is no JSON text, so a file that does makes the program panic. -/
theorem C81_bom (sys : System) (args : Args) (files : Files) (p : Str) (hp : p ∈ args.inputs) (b : Bytes)
    (hb : files p = some (0xEF :: 0xBB :: 0xBF :: b)) : run sys args files = (.panic, files) := by
  unfold run
  cases hm : mapPanic (readToString files) args.inputs with
  | none => rfl
  | some texts =>
    have hr := (readAll_iff files _ _).1 hm
    have hs : ∃ s ∈ texts, files p = some (encode s) := by
      clear hm
      generalize args.inputs = l at hp hr
      induction hr with
      | nil => cases hp
      | cons h _ ih =>
        rcases List.mem_cons.1 hp with rfl | hp
        · exact ⟨_, by simp, h⟩
        · obtain ⟨s, h1, h2⟩ := ih hp
          exact ⟨s, by simp [h1], h2⟩
    obtain ⟨s, hs1, hs2⟩ := hs
    rw [hb, Option.some.injEq, ← C81_utf8] at hs2
    have hd : decode (0xEF :: 0xBB :: 0xBF :: b) = (decode b).map ('\uFEFF' :: ·) := by
      have he : encodeChar '\uFEFF' = [0xEF, 0xBB, 0xBF] := by decide
      rw [← Lemmas.decode_encodeChar, he]; rfl
    rw [hd, Option.map_eq_some_iff] at hs2
    obtain ⟨r, -, rfl⟩ := hs2
    have hn : generateText LangId.parse texts = none := by
      unfold generateText
      rw [Prec.mapPanic_none.2 ⟨_, hs1, ?_⟩]
      have : Json.parse ('\uFEFF' :: r) = none := rfl
      simp only [parseResource, this]
    simp only [hn]

/-! ## C63: the program -/

/-- C63: if a file cannot be read or is not UTF-8, or the generator panics, the program panics and no file is touched. -/
theorem C63_untouched (sys : System) (args : Args) (files : Files)
    (h : (∃ p ∈ args.inputs, ∀ s, files p ≠ some (encode s)) ∨
      ∃ texts, List.Forall₂ (fun p s => files p = some (encode s)) args.inputs texts ∧ generateText LangId.parse texts = none) :
    run sys args files = (.panic, files) := by
  unfold run
  rcases h with ⟨p, hp, h⟩ | ⟨texts, h1, h2⟩
  · cases hm : mapPanic (readToString files) args.inputs with
    | none => rfl
    | some texts =>
      have hne : mapPanic (readToString files) args.inputs ≠ none := by rw [hm]; simp
      rw [mapPanic_isSome] at hne
      obtain ⟨s, hs⟩ := Option.ne_none_iff_exists'.1 (hne p hp)
      exact absurd ((readToString_iff files p s).1 hs) (h s)
  · rw [(readAll_iff files _ _).2 h1]
    simp only [h2]

/-- The cases of a run in which all files were read and the text was generated. -/
theorem run_cases (sys : System) (args : Args) (files files' : Files) (e : Ending) (h : run sys args files = (e, files')) :
    (e = .panic ∧ files' = files ∧ ∀ texts, List.Forall₂ (fun p s => files p = some (encode s)) args.inputs texts →
      generateText LangId.parse texts = none) ∨
    ∃ texts out, List.Forall₂ (fun p s => files p = some (encode s)) args.inputs texts ∧
      generateText LangId.parse texts = some out ∧
      ((e = .error ∧ ((sys.canCreate args.output = false ∧ files' = files) ∨
          ∃ k, sys.canCreate args.output = true ∧ sys.room = some k ∧ k < out.length ∧
            files' = setFile files args.output (encode (out.take k)))) ∨
        (sys.canCreate args.output = true ∧ (∀ k, sys.room = some k → out.length ≤ k) ∧
          (e, files') = format sys args (setFile files args.output (encode out)))) := by
  unfold run at h
  cases hm : mapPanic (readToString files) args.inputs with
  | none =>
    simp only [hm, Prod.mk.injEq] at h
    refine .inl ⟨h.1.symm, h.2.symm, fun texts ht => ?_⟩
    rw [← readAll_iff, hm] at ht; cases ht
  | some texts =>
    simp only [hm] at h
    have ht := (readAll_iff files _ _).1 hm
    cases hg : generateText LangId.parse texts with
    | none =>
      simp only [hg, Prod.mk.injEq] at h
      refine .inl ⟨h.1.symm, h.2.symm, fun texts' ht' => ?_⟩
      rw [← readAll_iff, hm, Option.some.injEq] at ht'
      rw [← ht', hg]
    | some out =>
      simp only [hg] at h
      have ha := C81_ascii _ _ _ hg
      have hlen : (encode out).length = out.length := by rw [ha, List.length_map]
      have htake : ∀ k, (encode out).take k = encode (out.take k) := by
        intro k
        have hp := C81_printable _ _ _ hg
        rw [ha, ← List.map_take]
        have : ∀ l : Str, (∀ c ∈ l, c.toNat < 0x80) → l.map (fun c => UInt8.ofNat c.toNat) = encode l := by
          intro l hl
          induction l with
          | nil => rfl
          | cons c l ih =>
            rw [encode, List.flatMap_cons, ← encode, ← ih fun c hc => hl c (by simp [hc]), encodeChar]
            simp only [hl c (by simp), if_true, List.map_cons, List.singleton_append]
        exact this _ fun c hc => by have := hp c (List.mem_of_mem_take hc); omega
      refine .inr ⟨texts, out, ht, hg, ?_⟩
      unfold writeOutput at h
      by_cases hc : sys.canCreate args.output = true
      · simp only [hc, if_true] at h
        cases hr : sys.room with
        | none => simp only [hr] at h; exact .inr ⟨hc, by simp, h.symm⟩
        | some k =>
          simp only [hr, hlen] at h
          by_cases hk : out.length ≤ k
          · simp only [hk, if_true] at h; exact .inr ⟨hc, by simp [hk], h.symm⟩
          · simp only [hk, if_false, Prod.mk.injEq] at h
            exact .inl ⟨h.1.symm, .inr ⟨k, hc, rfl, by omega, by rw [← h.2, htake]⟩⟩
      · simp only [hc, Bool.false_eq_true, if_false, Prod.mk.injEq] at h
        exact .inl ⟨h.1.symm, .inl ⟨by simpa using hc, h.2.symm⟩⟩

/-- C63: the output file is touched only after all inputs were read and the whole text was generated; when the program ends
well with `--ugly`, the output file is the generated text, and no other file has changed. -/
theorem C63_ugly (sys : System) (args : Args) (files files' : Files) (hu : args.ugly = true) (h : run sys args files = (.ok, files')) :
    ∃ texts out, List.Forall₂ (fun p s => files p = some (encode s)) args.inputs texts ∧ generateText LangId.parse texts = some out ∧
      files' args.output = some (encode out) ∧ ∀ p, p ≠ args.output → files' p = files p := by
  rcases run_cases sys args files files' _ h with ⟨h, -⟩ | ⟨texts, out, h1, h2, ⟨h, -⟩ | ⟨-, -, h3⟩⟩
  · cases h
  · cases h
  · simp only [format, hu, if_true, Prod.mk.injEq, true_and] at h3
    exact ⟨texts, out, h1, h2, by simp [h3, setFile], fun p hp => by simp [h3, setFile, hp]⟩

/-- C63: without `--ugly` the program ends well only if `rustfmt` could be started; what it leaves is what `rustfmt` made of the
generated text, and whether that succeeded is not looked at. -/
theorem C63_formatted (sys : System) (args : Args) (files files' : Files) (hu : args.ugly = false) (h : run sys args files = (.ok, files')) :
    ∃ texts out fmt, List.Forall₂ (fun p s => files p = some (encode s)) args.inputs texts ∧ generateText LangId.parse texts = some out ∧
      sys.rustfmt = some fmt ∧ files' = fmt args.output (fun p => if p = args.output then some (encode out) else files p) := by
  rcases run_cases sys args files files' _ h with ⟨h, -⟩ | ⟨texts, out, h1, h2, ⟨h, -⟩ | ⟨-, -, h3⟩⟩
  · cases h
  · cases h
  · simp only [format, hu, Bool.false_eq_true, if_false] at h3
    cases hf : sys.rustfmt with
    | none => simp [hf] at h3
    | some fmt =>
      simp only [hf, Prod.mk.injEq, true_and] at h3
      exact ⟨texts, out, fmt, h1, h2, rfl, h3⟩

/-- C63: an error is returned only after the text was generated.  Either the output file could not be created, and nothing has
changed; or what it had is lost, and it holds a proper part of the generated text. -/
theorem C63_error (sys : System) (args : Args) (files files' : Files) (h : run sys args files = (.error, files')) :
    ∃ texts out, List.Forall₂ (fun p s => files p = some (encode s)) args.inputs texts ∧ generateText LangId.parse texts = some out ∧
      ((sys.canCreate args.output = false ∧ files' = files) ∨
        ∃ part rest, out = part ++ rest ∧ rest ≠ [] ∧ files' args.output = some (encode part) ∧
          ∀ p, p ≠ args.output → files' p = files p) := by
  rcases run_cases sys args files files' _ h with ⟨h, -⟩ | ⟨texts, out, h1, h2, ⟨-, h3⟩ | ⟨-, -, h3⟩⟩
  · cases h
  · refine ⟨texts, out, h1, h2, h3.imp id ?_⟩
    rintro ⟨k, -, -, hk, h3⟩
    refine ⟨out.take k, out.drop k, (List.take_append_drop k out).symm, ?_, by simp [h3, setFile], fun p hp => by simp [h3, setFile, hp]⟩
    intro hd; rw [List.drop_eq_nil_iff] at hd; omega
  · unfold format at h3
    split at h3
    · cases h3
    · split at h3 <;> cases h3

/-- C81: the program ends well exactly if all inputs are UTF-8 files from which a text can be generated, the output file can be
created, there is room for as many bytes as the text has characters, and, without `--ugly`, `rustfmt` can be started. -/
theorem C81_ok (sys : System) (args : Args) (files : Files) :
    (run sys args files).1 = .ok ↔ ∃ texts out, List.Forall₂ (fun p s => files p = some (encode s)) args.inputs texts ∧
      generateText LangId.parse texts = some out ∧ sys.canCreate args.output = true ∧ (∀ k, sys.room = some k → out.length ≤ k) ∧
      (args.ugly = true ∨ sys.rustfmt.isSome = true) := by
  constructor
  · intro h
    rcases run_cases sys args files (run sys args files).2 .ok (by rw [← h]) with ⟨h, -⟩ | ⟨texts, out, h1, h2, ⟨h, -⟩ | ⟨h3, h4, h5⟩⟩
    · cases h
    · cases h
    · refine ⟨texts, out, h1, h2, h3, h4, ?_⟩
      unfold format at h5
      split at h5
      next hu => exact .inl hu
      next => split at h5
              · cases h5
              next hf => exact .inr (by rw [hf]; rfl)
  · rintro ⟨texts, out, h1, h2, h3, h4, h5⟩
    rcases run_cases sys args files (run sys args files).2 (run sys args files).1 rfl with ⟨-, -, h⟩ | ⟨texts', out', h1', h2', h⟩
    · rw [h texts h1] at h2; cases h2
    · rw [← readAll_iff] at h1 h1'
      rw [h1, Option.some.injEq] at h1'
      subst h1'
      rw [h2, Option.some.injEq] at h2'
      subst h2'
      rcases h with ⟨-, ⟨h, -⟩ | ⟨k, -, h6, h7, -⟩⟩ | ⟨-, -, h⟩
      · rw [h3] at h; cases h
      · have := h4 k h6; omega
      · have h := congrArg Prod.fst h
        dsimp only at h
        rw [h]
        unfold format
        rcases h5 with h5 | h5
        · simp [h5]
        · obtain ⟨f, hf⟩ := Option.isSome_iff_exists.1 h5
          rw [hf]; dsimp only; split <;> rfl

/-- A file over which the output is written, a missing file, a full disk, which leaves a part of the text, and a file that is
not UTF-8. -/
example :
    let files : Files := fun p => if p = c!"a" then some (encode supportedText) else if p = c!"l" then some [0x7B, 0xE9, 0x7D] else none
    let sys : System := ⟨fun _ => true, none, none⟩
    (run sys ⟨[c!"a"], c!"a", true⟩ files).1 = .ok ∧
    ((run sys ⟨[c!"a"], c!"a", true⟩ files).2 c!"a").map (·.take 11) = some (encode c!"# ! [allow ") ∧
    (run sys ⟨[c!"a"], c!"b", false⟩ files).1 = .panic ∧ ((run sys ⟨[c!"a"], c!"b", false⟩ files).2 c!"b").isSome = true ∧
    (run sys ⟨[c!"a", c!"c"], c!"a", true⟩ files).1 = .panic ∧ (run sys ⟨[c!"l"], c!"a", true⟩ files).1 = .panic ∧
    (run sys ⟨[c!"a", c!"c"], c!"a", true⟩ files).2 c!"a" = some (encode supportedText) ∧
    (run { sys with room := some 3 } ⟨[c!"a"], c!"a", true⟩ files).1 = .error ∧
    (run { sys with room := some 3 } ⟨[c!"a"], c!"a", true⟩ files).2 c!"a" = some (encode c!"# !") ∧
    (run { sys with room := some 3, canCreate := fun _ => false } ⟨[c!"a"], c!"a", true⟩ files).1 = .error := by decide +kernel

end Verif.Props
