import Verif.Lemmas.Render
import Verif.Lemmas.Generate

/-!
# The generated file, read as a file
-/

namespace Verif.Lemmas
open Verif Rust GenPr GenRs Generate RulesRead FileRead

/-- The items before the tables. -/
def headItems (n : Nat) : List Item :=
  [.attr [.id c!"allow", symOpen, .id c!"unused_variables", .sym c!",", .id c!"unused_parens", symClose, .sym c!"]"],
   .attr ((clippyAttr c!"float_cmp").drop 3), .attr ((clippyAttr c!"unreadable_literal").drop 3),
   .attr ((clippyAttr c!"nonminimal_bool").drop 3),
   .use [c!"super", c!"operands", c!"PluralOperands"], .use [c!"super", c!"PluralCategory"],
   .use [c!"unic_langid", c!"LanguageIdentifier"], .use [c!"unic_langid", c!"subtags"],
   .ruleType, .version n, .langidMacro]

theorem readItems_step {ts r : List Tok} {i : Item} (h : readItem ts = some (i, r)) (hne : ts ≠ []) (x : Tok) (k : List Tok) :
    readItems (x :: k) ts = (readItems k r).map fun l => i :: l := by
  cases ts with
  | nil => exact absurd rfl hne
  | cons t ts => rw [readItems, h]

theorem head_parts (n : Nat) : head n =
    ([.sym c!"#", symNot, .sym c!"[", .id c!"allow", symOpen, .id c!"unused_variables", .sym c!",", .id c!"unused_parens",
      symClose, .sym c!"]"] : List Tok) ++ (clippyAttr c!"float_cmp" ++ (clippyAttr c!"unreadable_literal" ++
    (clippyAttr c!"nonminimal_bool" ++ ((.id c!"use" :: qPath [c!"super", c!"operands", c!"PluralOperands"] ++ [.sym c!";"]) ++
    ((.id c!"use" :: qPath [c!"super", c!"PluralCategory"] ++ [.sym c!";"]) ++
    ((.id c!"use" :: qPath [c!"unic_langid", c!"LanguageIdentifier"] ++ [.sym c!";"]) ++
    ((.id c!"use" :: qPath [c!"unic_langid", c!"subtags"] ++ [.sym c!";"]) ++ (ruleTypeTokens ++
    ([.id c!"pub", .id c!"static", .id c!"CLDR_VERSION", .sym c!":", .id c!"usize", .sym c!"=", .lit n [], .sym c!";"] ++
    (macroTokens ++ (.sym c!"," :: macroEnd))))))))))) := by
  simp [head, ruleTypeTokens, macroTokens, macroEnd, qPath]

theorem readItem_allow (r : List Tok) : readItem (([.sym c!"#", symNot, .sym c!"[", .id c!"allow", symOpen,
    .id c!"unused_variables", .sym c!",", .id c!"unused_parens", symClose, .sym c!"]"] : List Tok) ++ r) =
    some (.attr [.id c!"allow", symOpen, .id c!"unused_variables", .sym c!",", .id c!"unused_parens", symClose, .sym c!"]"], r) := by
  with_unfolding_all rfl

theorem readItem_clippy1 (r : List Tok) : readItem (clippyAttr c!"float_cmp" ++ r) =
    some (.attr ((clippyAttr c!"float_cmp").drop 3), r) := by
  with_unfolding_all rfl
theorem readItem_clippy2 (r : List Tok) : readItem (clippyAttr c!"unreadable_literal" ++ r) =
    some (.attr ((clippyAttr c!"unreadable_literal").drop 3), r) := by
  with_unfolding_all rfl
theorem readItem_clippy3 (r : List Tok) : readItem (clippyAttr c!"nonminimal_bool" ++ r) =
    some (.attr ((clippyAttr c!"nonminimal_bool").drop 3), r) := by
  with_unfolding_all rfl

theorem readItem_use1 (r : List Tok) :
    readItem ((.id c!"use" :: qPath [c!"super", c!"operands", c!"PluralOperands"] ++ [.sym c!";"]) ++ r) =
      some (.use [c!"super", c!"operands", c!"PluralOperands"], r) := by with_unfolding_all rfl
theorem readItem_use2 (r : List Tok) :
    readItem ((.id c!"use" :: qPath [c!"super", c!"PluralCategory"] ++ [.sym c!";"]) ++ r) =
      some (.use [c!"super", c!"PluralCategory"], r) := by with_unfolding_all rfl
theorem readItem_use3 (r : List Tok) :
    readItem ((.id c!"use" :: qPath [c!"unic_langid", c!"LanguageIdentifier"] ++ [.sym c!";"]) ++ r) =
      some (.use [c!"unic_langid", c!"LanguageIdentifier"], r) := by with_unfolding_all rfl
theorem readItem_use4 (r : List Tok) :
    readItem ((.id c!"use" :: qPath [c!"unic_langid", c!"subtags"] ++ [.sym c!";"]) ++ r) =
      some (.use [c!"unic_langid", c!"subtags"], r) := by with_unfolding_all rfl
theorem readItem_ruleType (r : List Tok) : readItem (ruleTypeTokens ++ r) = some (.ruleType, r) := by with_unfolding_all rfl
theorem readItem_version (n : Nat) (r : List Tok) :
    readItem (([.id c!"pub", .id c!"static", .id c!"CLDR_VERSION", .sym c!":", .id c!"usize", .sym c!"=", .lit n [],
      .sym c!";"] : List Tok) ++ r) = some (.version n, r) := by with_unfolding_all rfl
theorem readItem_macro (r : List Tok) : readItem (macroTokens ++ (.sym c!"," :: macroEnd) ++ r) = some (.langidMacro, r) := by
  with_unfolding_all rfl

theorem readItems_head (n : Nat) (r : List Tok) (fuel : List Tok) (hf : 11 ≤ fuel.length) :
    readItems fuel (head n ++ r) = (readItems (fuel.drop 11) r).map fun l => headItems n ++ l := by
  match fuel, hf with
  | _ :: _ :: _ :: _ :: _ :: _ :: _ :: _ :: _ :: _ :: _ :: k, _ =>
    rw [head_parts]
    simp only [List.append_assoc]
    rw [readItems_step (readItem_allow _) (by simp), readItems_step (readItem_clippy1 _) (by simp [clippyAttr]),
      readItems_step (readItem_clippy2 _) (by simp [clippyAttr]), readItems_step (readItem_clippy3 _) (by simp [clippyAttr])]
    have u1 := readItem_use1; have u2 := readItem_use2; have u3 := readItem_use3; have u4 := readItem_use4
    simp only [List.append_assoc] at u1 u2 u3 u4
    rw [readItems_step (u1 _) (by simp), readItems_step (u2 _) (by simp), readItems_step (u3 _) (by simp),
      readItems_step (u4 _) (by simp),
      readItems_step (readItem_ruleType _) (by simp [ruleTypeTokens]), readItems_step (readItem_version n _) (by simp)]
    have m := readItem_macro
    simp only [List.append_assoc] at m
    rw [readItems_step (m _) (by simp [macroTokens])]
    simp only [Option.map_map]
    rfl

/-- Entries separated by commas, up to the closing bracket. -/
theorem readEntries_spec (l : List (List Tok)) (hl : ∀ ts ∈ l, Stream ts) (rest fuel : List Tok) (hf : l.length < fuel.length) :
    readEntries fuel (sepBy (.sym c!",") l ++ .sym c!"]" :: rest) = (mapPanic readEntry l).map fun es => (es, rest) := by
  induction l generalizing fuel with
  | nil =>
    cases fuel with
    | nil => simp at hf
    | cons x k => rfl
  | cons ts l ih =>
    cases fuel with
    | nil => simp at hf
    | cons x k =>
      obtain ⟨b, rfl, hb⟩ := hl ts (by simp)
      have hexp : ∀ r, expect [Tok.sym c!"]"] (symOpen :: r) = none := fun r => rfl
      have ih := ih (fun t ht => hl t (by simp [ht])) k (by simpa using hf)
      cases l with
      | nil =>
        rw [sepBy, readEntries, List.cons_append, hexp]
        have hg := takeGroup_wrap (o := symOpen) (c := symClose) rfl rfl hb.2 (.sym c!"]" :: rest)
        rw [List.cons_append] at hg
        simp only [hg, mapPanic]
        cases readEntry (symOpen :: (b ++ [symClose])) <;> rfl
      | cons y l =>
        rw [sepBy, readEntries, List.cons_append, List.cons_append, hexp]
        have hg := takeGroup_wrap (o := symOpen) (c := symClose) rfl rfl hb.2
          (.sym c!"," :: (sepBy (.sym c!",") (y :: l) ++ .sym c!"]" :: rest))
        have e : symOpen :: (b ++ [symClose] ++ .sym c!"," :: sepBy (.sym c!",") (y :: l) ++ .sym c!"]" :: rest) =
            symOpen :: (b ++ [symClose]) ++ (.sym c!"," :: (sepBy (.sym c!",") (y :: l) ++ .sym c!"]" :: rest)) := by simp
        rw [e]
        simp only [hg]
        rw [mapPanic]
        cases readEntry (symOpen :: (b ++ [symClose])) with
        | none => rfl
        | some en =>
          simp only [expect, if_true, ih]
          cases mapPanic readEntry (y :: l) <;> rfl

theorem sepBy_length (sep : Tok) (l : List (List Tok)) (hl : ∀ ts ∈ l, Stream ts) : l.length ≤ (sepBy sep l).length := by
  match l, hl with
  | [], _ => simp
  | [x], h =>
    obtain ⟨b, rfl, -⟩ := h x (by simp)
    simp [sepBy]
  | x :: y :: r, h =>
    have := sepBy_length sep (y :: r) fun z hz => h z (by simp [List.mem_cons] at hz ⊢; tauto)
    rw [sepBy]
    simp only [List.length_append, List.length_cons] at this ⊢
    omega

theorem readItem_table (ty : RuleType) (l : List (List Tok)) (hl : ∀ ts ∈ l, Stream ts) (rest : List Tok) :
    readItem (createPrType ty l ++ rest) = (mapPanic readEntry l).map fun es => (.table (tableName ty) es, rest) := by
  have hlen := sepBy_length (.sym c!",") l hl
  have e : createPrType ty l ++ rest = [.id c!"pub", .id c!"const", .id (tableName ty), .sym c!":", symAmp, .sym c!"[", symOpen,
      .id c!"LanguageIdentifier", .sym c!",", .id c!"PluralRule", symClose, .sym c!"]", .sym c!"=", symAmp, .sym c!"["] ++
      (sepBy (.sym c!",") l ++ .sym c!"]" :: .sym c!";" :: rest) := by simp [createPrType]
  have hes := readEntries_spec l hl (.sym c!";" :: rest) (sepBy (.sym c!",") l ++ .sym c!"]" :: .sym c!";" :: rest)
    (by simp only [List.length_append, List.length_cons]; omega)
  have hstep : ∀ r, readItem ([.id c!"pub", .id c!"const", .id (tableName ty), .sym c!":", symAmp, .sym c!"[", symOpen,
      .id c!"LanguageIdentifier", .sym c!",", .id c!"PluralRule", symClose, .sym c!"]", .sym c!"=", symAmp, .sym c!"["] ++ r) =
      match readEntries r r with
      | none => none
      | some (es, r) => (expect [.sym c!";"] r).map fun r => (.table (tableName ty) es, r) := by
    intro r
    with_unfolding_all rfl
  rw [e, hstep, hes]
  cases mapPanic readEntry l <;> rfl

/-- The tables, read. -/
def readTables (l : List (RuleType × List (List Tok))) : Option (List Item) :=
  mapPanic (fun p => (mapPanic readEntry p.2).map (Item.table (tableName p.1))) l

theorem readItems_tables (l : List (RuleType × List (List Tok))) (hl : ∀ p ∈ l, ∀ ts ∈ p.2, Stream ts) (fuel : List Tok)
    (hf : l.length ≤ fuel.length) : readItems fuel (l.map fun p => createPrType p.1 p.2).flatten = readTables l := by
  induction l generalizing fuel with
  | nil => cases fuel <;> rfl
  | cons p l ih =>
    cases fuel with
    | nil => simp at hf
    | cons x k =>
      have ih := ih (fun q hq => hl q (by simp [hq])) k (by simpa using hf)
      have ht := readItem_table p.1 p.2 (hl p (by simp)) (l.map fun p => createPrType p.1 p.2).flatten
      have hne : createPrType p.1 p.2 ++ (l.map fun p => createPrType p.1 p.2).flatten ≠ [] := by simp [createPrType]
      rw [List.map_cons, List.flatten_cons]
      cases hm : mapPanic readEntry p.2 with
      | none =>
        rw [hm] at ht
        obtain ⟨a, b, hab⟩ := List.exists_cons_of_ne_nil hne
        rw [hab] at ht ⊢
        simp only [readItems, ht, readTables, mapPanic, hm, Option.map_none]
      | some es =>
        rw [hm] at ht
        rw [readItems_step ht hne, ih]
        simp only [readTables, mapPanic, hm, Option.map_some]
        cases mapPanic (fun p : RuleType × List (List Tok) => (mapPanic readEntry p.2).map (Item.table (tableName p.1))) l <;> rfl

theorem head_length (n : Nat) : 13 ≤ (head n).length := by
  simp [head, clippyAttr, qPath]

/-- The file that is generated from a state of the loop. -/
theorem readFile_tables (n : Nat) (l : List (RuleType × List (List Tok))) (hl : ∀ p ∈ l, ∀ ts ∈ p.2, Stream ts) (h2 : l.length ≤ 2) :
    readFile (head n ++ (l.map fun p => createPrType p.1 p.2).flatten) = (readTables l).map fun t => headItems n ++ t := by
  have := head_length n
  rw [readFile, readItems_head n _ _ (by simp only [List.length_append]; omega), readItems_tables l hl]
  rw [List.length_drop, List.length_append]
  omega

/-- Where the streams of the final state come from. -/
theorem addType_from (parseId : Str → Option LangId) (old new : Option (List (List Tok))) (o : Option TypeObj)
    (h : addType parseId old o = some new) :
    (o = none ∧ new = old) ∨ ∃ obj l, o = some obj ∧ old = none ∧ genTypeRs parseId obj = some l ∧ new = some l := by
  cases o with
  | none => simp only [addType, Option.some.injEq] at h; exact .inl ⟨rfl, h.symm⟩
  | some obj =>
    simp only [addType] at h
    cases hg : genTypeRs parseId obj with
    | none => simp [hg] at h
    | some l =>
      cases old with
      | some x => simp [hg] at h
      | none =>
        simp only [hg, Option.isSome_none, Bool.false_eq_true, if_false, Option.some.injEq] at h
        exact .inr ⟨obj, l, rfl, rfl, hg, h.symm⟩

/-- The streams of a type, from the data of that type in the files. -/
def From (parseId : Str → Option LangId) (data : List TypeObj) (old new : Option (List (List Tok))) : Prop :=
  (data = [] ∧ new = old) ∨ ∃ obj l, data = [obj] ∧ old = none ∧ genTypeRs parseId obj = some l ∧ new = some l

theorem genLoop_from (parseId : Str → Option LangId) (rs : List Generate.Resource) (s s' : GenState) (h : genLoop parseId s rs = some s') :
    From parseId (rs.filterMap (·.cardinal)) s.cardinal s'.cardinal ∧ From parseId (rs.filterMap (·.ordinal)) s.ordinal s'.ordinal ∧
    ∀ r ∈ rs, s'.version = some r.cldrVersion := by
  induction rs generalizing s with
  | nil =>
    simp only [genLoop, Option.some.injEq] at h; subst h
    exact ⟨.inl ⟨rfl, rfl⟩, .inl ⟨rfl, rfl⟩, by simp⟩
  | cons r rs ih =>
    rw [Gen.genLoop_cons, Gen.genStep_eq] at h
    split at h
    · cases hc : addType parseId s.cardinal r.cardinal with
      | none => simp [hc] at h
      | some c =>
        cases ho : addType parseId s.ordinal r.ordinal with
        | none => simp [hc, ho] at h
        | some o =>
          simp only [hc, ho, Option.bind_some] at h
          obtain ⟨h1, h2, h3⟩ := ih _ h
          have key : ∀ (x : Option TypeObj) (data : List TypeObj) (old mid new : Option (List (List Tok))),
              addType parseId old x = some mid → From parseId data mid new → From parseId (x.toList ++ data) old new := by
            intro x data old mid new ha hf
            rcases addType_from parseId old mid x ha with ⟨rfl, rfl⟩ | ⟨obj, l, rfl, rfl, hg, rfl⟩
            · exact hf
            · rcases hf with ⟨rfl, rfl⟩ | ⟨_, _, _, hn, _⟩
              · exact .inr ⟨obj, l, rfl, rfl, hg, rfl⟩
              · cases hn
          have e1 : (r :: rs).filterMap (·.cardinal) = r.cardinal.toList ++ rs.filterMap (·.cardinal) := by
            rw [List.filterMap_cons]; cases r.cardinal <;> rfl
          have e2 : (r :: rs).filterMap (·.ordinal) = r.ordinal.toList ++ rs.filterMap (·.ordinal) := by
            rw [List.filterMap_cons]; cases r.ordinal <;> rfl
          refine ⟨e1 ▸ key _ _ _ _ _ hc h1, e2 ▸ key _ _ _ _ _ ho h2, fun q hq => ?_⟩
          rcases List.mem_cons.1 hq with rfl | hq
          · cases rs with
            | nil => simp only [genLoop, Option.some.injEq] at h; subst h; rfl
            | cons r' rs' =>
              have hv := h3 r' (by simp)
              rw [Gen.genLoop_cons, Gen.genStep_eq] at h
              split at h
              · rename_i hv'
                rcases hv' with hv' | hv'
                · cases hv'
                · rw [hv, ← hv']
              · cases h
          · exact h3 q hq
    · cases h

end Verif.Lemmas
