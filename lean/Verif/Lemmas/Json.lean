import Verif.JsonSpec
import Mathlib.Tactic.IntervalCases

/-! # Lemmas: the JSON reader against the JSON grammar -/

namespace Verif.Lemmas
open Verif Json JsonSpec

theorem char_of_toNat {c : Char} {n : Nat} (h : c.toNat = n) : c = Char.ofNat n := by rw [← h, Char.ofNat_toNat]

theorem isWs_iff (c : Char) : isWs c = true ↔ c = ' ' ∨ c = '\t' ∨ c = '\n' ∨ c = '\r' := by
  constructor
  · intro h
    simp only [isWs, Bool.or_eq_true, beq_iff_eq] at h
    rcases h with ((h | h) | h) | h
    · exact Or.inl (char_of_toNat h)
    · exact Or.inr (Or.inl (char_of_toNat h))
    · exact Or.inr (Or.inr (Or.inl (char_of_toNat h)))
    · exact Or.inr (Or.inr (Or.inr (char_of_toNat h)))
  · rintro (rfl | rfl | rfl | rfl) <;> rfl

theorem ws_iff (s : Str) : Ws s ↔ s.all isWs = true := by
  simp only [Ws, List.all_eq_true, isWs_iff]

theorem mem_takeWhile_pos (p : Char → Bool) (s : Str) (c : Char) (h : c ∈ s.takeWhile p) : p c = true := by
  induction s with
  | nil => simp at h
  | cons x s ih =>
    rw [List.takeWhile_cons] at h
    split at h
    · rename_i hx
      rcases List.mem_cons.1 h with rfl | h
      · exact hx
      · exact ih h
    · simp at h

theorem skipWs_split (s : Str) : ∃ w, Ws w ∧ s = w ++ skipWs s := by
  refine ⟨s.takeWhile isWs, ?_, ?_⟩
  · rw [ws_iff, List.all_eq_true]
    intro c hc
    exact mem_takeWhile_pos _ _ _ hc
  · simp [skipWs, List.takeWhile_append_dropWhile]

theorem skipWs_append (w s : Str) (h : Ws w) : skipWs (w ++ s) = skipWs s := by
  unfold skipWs
  induction w with
  | nil => rfl
  | cons c w ih =>
    have hc := (isWs_iff c).2 (h c (by simp))
    rw [List.cons_append, List.dropWhile_cons_of_pos hc]
    exact ih fun x hx => h x (by simp [hx])

theorem skipWs_cons (c : Char) (s : Str) (h : isWs c = false) : skipWs (c :: s) = c :: s := by
  unfold skipWs
  rw [List.dropWhile_cons_of_neg (by simp [h])]

theorem skipWs_ws (w : Str) (h : Ws w) : skipWs w = [] := by
  have := skipWs_append w [] h
  simpa [skipWs] using this

/-! ## Strings -/

theorem hexVal_some (c : Char) (n : Nat) : hexVal c = some n ↔ (c, n) ∈ hexDigits := by
  constructor
  · intro h
    simp only [hexVal] at h
    split at h
    · rename_i h'
      obtain ⟨h1, h2⟩ := h'
      cases h
      generalize hm : c.toNat = m at *
      rw [char_of_toNat hm]
      interval_cases m <;> decide
    · split at h
      · rename_i h'
        obtain ⟨h1, h2⟩ := h'
        cases h
        generalize hm : c.toNat = m at *
        rw [char_of_toNat hm]
        interval_cases m <;> decide
      · split at h
        · rename_i h'
          obtain ⟨h1, h2⟩ := h'
          cases h
          generalize hm : c.toNat = m at *
          rw [char_of_toNat hm]
          interval_cases m <;> decide
        · cases h
  · intro h
    have : ∀ p ∈ hexDigits, hexVal p.1 = some p.2 := by decide
    exact this _ h

theorem simpleEscape_some (x c : Char) : simpleEscape x = some c ↔ (x, c) ∈ escapes := by
  constructor
  · intro h
    unfold simpleEscape at h
    split at h
    · rename_i hx; cases hx; cases h; decide
    split at h
    · rename_i hx; cases hx; cases h; decide
    split at h
    · rename_i hx; cases hx; cases h; decide
    split at h
    · rename_i hx; cases hx; cases h; decide
    split at h
    · rename_i hx; cases hx; cases h; decide
    split at h
    · rename_i hx; cases hx; cases h; decide
    split at h
    · rename_i hx; cases hx; cases h; decide
    split at h
    · rename_i hx; cases hx; cases h; decide
    cases h
  · intro h
    have : ∀ p ∈ escapes, simpleEscape p.1 = some p.2 := by decide
    exact this _ h

theorem hex4_some (s r : Str) (n : Nat) (h : hex4 s = some (n, r)) : ∃ a b c d na nb nc nd, s = a :: b :: c :: d :: r ∧
    (a, na) ∈ hexDigits ∧ (b, nb) ∈ hexDigits ∧ (c, nc) ∈ hexDigits ∧ (d, nd) ∈ hexDigits ∧
    n = 4096 * na + 256 * nb + 16 * nc + nd := by
  match s, h with
  | a :: b :: c :: d :: t, h =>
    rw [hex4] at h
    cases ha : hexVal a with
    | none => simp [ha] at h
    | some na =>
      cases hb : hexVal b with
      | none => simp [ha, hb] at h
      | some nb =>
        cases hc : hexVal c with
        | none => simp [ha, hb, hc] at h
        | some nc =>
          cases hd : hexVal d with
          | none => simp [ha, hb, hc, hd] at h
          | some nd =>
            simp only [ha, hb, hc, hd, Option.some.injEq, Prod.mk.injEq] at h
            refine ⟨a, b, c, d, na, nb, nc, nd, by rw [h.2], (hexVal_some _ _).1 ha, (hexVal_some _ _).1 hb,
              (hexVal_some _ _).1 hc, (hexVal_some _ _).1 hd, ?_⟩
            omega

theorem escape_some (s r : Str) (e : Elem) (h : escape s = some (e, r)) :
    (∃ x c, s = x :: r ∧ (x, c) ∈ escapes ∧ e = .ch c) ∨
    (∃ a b c d na nb nc nd, s = 'u' :: a :: b :: c :: d :: r ∧
      (a, na) ∈ hexDigits ∧ (b, nb) ∈ hexDigits ∧ (c, nc) ∈ hexDigits ∧ (d, nd) ∈ hexDigits ∧
      e = .unit (4096 * na + 256 * nb + 16 * nc + nd)) := by
  match s, h with
  | x :: t, h =>
    rw [escape] at h
    split at h
    · rename_i hx
      subst hx
      right
      cases h4 : hex4 t with
      | none => simp [h4] at h
      | some p =>
        obtain ⟨n, t'⟩ := p
        simp only [h4, Option.map_some, Option.some.injEq, Prod.mk.injEq] at h
        obtain ⟨a, b, c, d, na, nb, nc, nd, hs, h1, h2, h3, h4', hn⟩ := hex4_some t t' n h4
        refine ⟨a, b, c, d, na, nb, nc, nd, by rw [hs, h.2], h1, h2, h3, h4', by rw [← h.1, hn]⟩
    · left
      cases he : simpleEscape x with
      | none => simp [he] at h
      | some c =>
        simp only [he, Option.map_some, Option.some.injEq, Prod.mk.injEq] at h
        exact ⟨x, c, by rw [h.2], (simpleEscape_some _ _).1 he, h.1.symm⟩

theorem strBody_sound (k s : Str) (acc l : List Elem) (r : Str) (h : strBody k s acc = some (l, r)) :
    ∃ b m, s = b ++ '"' :: r ∧ Chars b m ∧ l = acc.reverse ++ m := by
  induction k generalizing s acc with
  | nil => simp [strBody] at h
  | cons k0 k ih =>
    match s, h with
    | [], h => simp [strBody] at h
    | c :: t, h =>
      rw [strBody] at h
      split at h
      · rename_i hc
        simp only [Option.some.injEq, Prod.mk.injEq] at h
        exact ⟨[], [], by rw [hc, h.2]; rfl, .nil, by rw [← h.1]; simp⟩
      · rename_i hq
        split at h
        · rename_i hb
          cases he : escape t with
          | none => simp [he] at h
          | some p =>
            obtain ⟨e, r'⟩ := p
            simp only [he] at h
            obtain ⟨b, m, h1, h2, h3⟩ := ih _ _ h
            rcases escape_some _ _ _ he with ⟨x, d, hs, hx, rfl⟩ | ⟨a, b', c', d, na, nb, nc, nd, hs, ha, hb', hc', hd, rfl⟩
            · refine ⟨'\\' :: x :: b, .ch d :: m, by rw [hs, hb, h1]; rfl, .esc hx h2, by rw [h3]; simp⟩
            · refine ⟨'\\' :: 'u' :: a :: b' :: c' :: d :: b, _ :: m, by rw [hs, hb, h1]; rfl,
                .uni ha hb' hc' hd h2, by rw [h3]; simp⟩
        · rename_i hb
          split at h
          · cases h
          · rename_i h32
            obtain ⟨b, m, h1, h2, h3⟩ := ih _ _ h
            exact ⟨c :: b, .ch c :: m, by rw [h1]; rfl, .plain hq hb (by omega) h2, by rw [h3]; simp⟩

theorem strBody_complete (b : Str) (m : List Elem) (h : Chars b m) (k : Str) (hk : b.length < k.length) (acc : List Elem)
    (r : Str) : strBody k (b ++ '"' :: r) acc = some (acc.reverse ++ m, r) := by
  induction h generalizing k acc with
  | nil =>
    match k, hk with
    | k0 :: k, _ => simp [strBody]
  | @plain c s l hq hb h32 _ ih =>
    match k, hk with
    | k0 :: k, hk =>
      rw [List.cons_append, strBody, if_neg hq, if_neg hb, if_neg (by omega), ih k (by simpa using hk)]
      simp
  | @esc x c s l hx _ ih =>
    match k, hk with
    | k0 :: k, hk =>
      have hu : x ≠ 'u' := by
        intro hu; subst hu; revert hx; simp [escapes]
      have he : escape (x :: (s ++ '"' :: r)) = some (.ch c, s ++ '"' :: r) := by
        rw [escape, if_neg hu, (simpleEscape_some x c).2 hx]; rfl
      rw [List.cons_append, List.cons_append, strBody, if_neg (by decide), if_pos rfl, he]
      simp only
      rw [ih k (by simp at hk; omega)]
      simp
  | @uni a b c d na nb nc nd s l ha hb hc hd _ ih =>
    match k, hk with
    | k0 :: k, hk =>
      have he : escape ('u' :: a :: b :: c :: d :: (s ++ '"' :: r)) =
          some (.unit (4096 * na + 256 * nb + 16 * nc + nd), s ++ '"' :: r) := by
        rw [escape, if_pos rfl, hex4, (hexVal_some _ _).2 ha, (hexVal_some _ _).2 hb, (hexVal_some _ _).2 hc,
          (hexVal_some _ _).2 hd]
        simp only [Option.map_some, Option.some.injEq, Prod.mk.injEq, Elem.unit.injEq, and_true]
        omega
      simp only [List.cons_append]
      rw [strBody, if_neg (by decide), if_pos rfl, he]
      simp only
      rw [ih k (by simp at hk; omega)]
      simp

theorem toNat_range (c : Char) : c.toNat < 0xD800 ∨ (0xE000 ≤ c.toNat ∧ c.toNat < 0x110000) := by
  have := c.valid
  simp only [UInt32.isValidChar, Nat.isValidChar] at this
  simp only [Char.toNat]
  omega

theorem toNat_ofNat (n : Nat) (h : n < 0xD800 ∨ (0xE000 ≤ n ∧ n < 0x110000)) : (Char.ofNat n).toNat = n := by
  have hv : n.isValidChar := by unfold Nat.isValidChar; omega
  rw [Char.ofNat, dif_pos hv]
  simp [Char.ofNatAux, Char.toNat]

theorem chars_units_lt (b : Str) (l : List Elem) (h : Chars b l) (n : Nat) (hn : Elem.unit n ∈ l) : n < 65536 := by
  induction h with
  | nil => simp at hn
  | plain _ _ _ _ ih => exact ih (by simpa using hn)
  | esc _ _ ih => exact ih (by simpa using hn)
  | @uni a b c d na nb nc nd s l ha hb hc hd _ ih =>
    have hx : ∀ p ∈ hexDigits, p.2 < 16 := by decide
    have h1 := hx _ ha; have h2 := hx _ hb; have h3 := hx _ hc; have h4 := hx _ hd
    simp only [List.mem_cons, Elem.unit.injEq] at hn
    rcases hn with hn | hn
    · simp only at h1 h2 h3 h4; omega
    · exact ih hn

theorem decode_unit (n : Nat) (r : List Elem) : decode (.unit n :: r) =
    if n < 0xD800 ∨ 0xE000 ≤ n then (decode r).map fun s => Char.ofNat n :: s
    else if 0xDC00 ≤ n then none
    else
      match r with
      | .unit m :: r' =>
        if 0xDC00 ≤ m ∧ m < 0xE000 then
          (decode r').map fun s => Char.ofNat (0x10000 + (n - 0xD800) * 0x400 + (m - 0xDC00)) :: s
        else none
      | _ => none := by
  rw [decode.eq_def]
  rfl

theorem decode_sound (l : List Elem) (hl : ∀ n, Elem.unit n ∈ l → n < 65536) (s : Str) (h : decode l = some s) :
    Decodes l s := by
  match l with
  | [] => simp only [decode, Option.some.injEq] at h; subst h; exact .nil
  | .ch c :: r =>
    rw [decode] at h
    cases hr : decode r with
    | none => simp [hr] at h
    | some t =>
      simp only [hr, Option.map_some, Option.some.injEq] at h
      subst h
      exact .ch (decode_sound r (fun n hn => hl n (by simp [hn])) t hr)
  | .unit n :: r =>
    have hn := hl n (by simp)
    rw [decode_unit] at h
    split at h
    · rename_i hlt
      cases hr : decode r with
      | none => simp [hr] at h
      | some t =>
        simp only [hr, Option.map_some, Option.some.injEq] at h
        subst h
        have := Decodes.units (c := Char.ofNat n) (decode_sound r (fun n hn => hl n (by simp [hn])) t hr)
        rw [utf16, toNat_ofNat n (by omega), if_pos (by omega)] at this
        exact this
    · rename_i hge
      split at h
      · cases h
      · rename_i hhi
        match r, h with
        | .unit m :: r', h =>
          simp only at h
          split at h
          · rename_i hm
            cases hr : decode r' with
            | none => simp [hr] at h
            | some t =>
              simp only [hr, Option.map_some, Option.some.injEq] at h
              subst h
              have hd := decode_sound r' (fun n hn => hl n (by simp [hn])) t hr
              have := Decodes.units (c := Char.ofNat (0x10000 + (n - 0xD800) * 0x400 + (m - 0xDC00))) hd
              rw [utf16, toNat_ofNat _ (by omega), if_neg (by omega)] at this
              have e1 : 0xD800 + (0x10000 + (n - 0xD800) * 0x400 + (m - 0xDC00) - 0x10000) / 0x400 = n := by omega
              have e2 : 0xDC00 + (0x10000 + (n - 0xD800) * 0x400 + (m - 0xDC00) - 0x10000) % 0x400 = m := by omega
              rw [e1, e2] at this
              exact this
          · cases h
        | [], h => simp at h
        | .ch _ :: _, h => simp at h

theorem decode_complete (l : List Elem) (s : Str) (h : Decodes l s) : decode l = some s := by
  induction h with
  | nil => rfl
  | ch _ ih => rw [decode, ih]; rfl
  | @units c l s _ ih =>
    have hr := toNat_range c
    unfold utf16
    split
    · simp only [List.map_cons, List.map_nil, List.cons_append, List.nil_append]
      rw [decode_unit, if_pos (by omega), ih, Char.ofNat_toNat]; rfl
    · rename_i hb
      simp only [List.map_cons, List.map_nil, List.cons_append, List.nil_append]
      rw [decode_unit, if_neg (by omega), if_neg (by omega)]
      simp only
      rw [if_pos (by omega), ih]
      simp only [Option.map_some, Option.some.injEq, List.cons.injEq, and_true]
      have : 0x10000 + (0xD800 + (c.toNat - 0x10000) / 0x400 - 0xD800) * 0x400 +
        (0xDC00 + (c.toNat - 0x10000) % 0x400 - 0xDC00) = c.toNat := by omega
      rw [this, Char.ofNat_toNat]

theorem pStr_sound (k s r : Str) (v : Option Str) (h : pStr k s = some (v, r)) : ∃ t, IsString t v ∧ '"' :: s = t ++ r := by
  unfold pStr at h
  cases hb : strBody k s [] with
  | none => simp [hb] at h
  | some p =>
    obtain ⟨l, r'⟩ := p
    simp only [hb, Option.map_some, Option.some.injEq, Prod.mk.injEq] at h
    obtain ⟨h1, rfl⟩ := h
    obtain ⟨b, m, hs, hc, hl⟩ := strBody_sound _ _ _ _ _ hb
    simp only [List.reverse_nil, List.nil_append] at hl
    subst hl
    refine ⟨'"' :: b ++ ['"'], ⟨b, l, rfl, hc, ?_⟩, by rw [hs]; simp⟩
    cases v with
    | some t => exact Or.inl ⟨t, rfl, decode_sound l (fun n => chars_units_lt b l hc n) t h1⟩
    | none =>
      refine Or.inr ⟨rfl, fun t ht => ?_⟩
      rw [decode_complete l t ht] at h1; cases h1

theorem pStr_complete (t : Str) (v : Option Str) (h : IsString t v) (k r : Str) (hk : t.length ≤ k.length) :
    ∃ s, t ++ r = '"' :: s ∧ pStr k s = some (v, r) := by
  obtain ⟨b, l, rfl, hc, hv⟩ := h
  refine ⟨b ++ '"' :: r, by simp, ?_⟩
  unfold pStr
  rw [strBody_complete b l hc k (by simp at hk; omega)]
  simp only [List.reverse_nil, List.nil_append, Option.map_some, Option.some.injEq, Prod.mk.injEq, and_true]
  rcases hv with ⟨s, rfl, hd⟩ | ⟨rfl, hd⟩
  · exact decode_complete l s hd
  · cases hx : decode l with
    | none => rfl
    | some s => exact absurd (decode_sound l (fun n => chars_units_lt b l hc n) s hx) (hd s)

/-! ## Numbers -/

theorem isDigit_iff (c : Char) : isDigit c = true ↔ '0' ≤ c ∧ c ≤ '9' := by
  simp only [isDigit, Bool.and_eq_true, decide_eq_true_eq]
  exact Iff.rfl

/-- The text does not start with a digit. -/
def NoDigit (r : Str) : Prop := ∀ c t, r = c :: t → isDigit c = false

theorem digits1_sound (s d r : Str) (h : digits1 s = some (d, r)) : s = d ++ r ∧ Digits d ∧ NoDigit r := by
  unfold digits1 at h
  split at h
  · cases h
  · rename_i hne
    simp only [Option.some.injEq, Prod.mk.injEq] at h
    obtain ⟨rfl, rfl⟩ := h
    refine ⟨by simp [List.takeWhile_append_dropWhile], ⟨by simpa using hne, fun c hc => (isDigit_iff c).1 (mem_takeWhile_pos _ _ _ hc)⟩, ?_⟩
    intro c t hct
    have := List.head?_dropWhile_not isDigit s
    rw [hct] at this
    simpa using this

theorem takeWhile_all (p : Char → Bool) (d r : Str) (hd : ∀ c ∈ d, p c = true) (hr : ∀ c t, r = c :: t → p c = false) :
    (d ++ r).takeWhile p = d ∧ (d ++ r).dropWhile p = r := by
  induction d with
  | nil =>
    cases r with
    | nil => exact ⟨rfl, rfl⟩
    | cons c t => have := hr c t rfl; simp [List.takeWhile_cons, List.dropWhile_cons, this]
  | cons c d ih =>
    have hc := hd c (by simp)
    have := ih fun x hx => hd x (by simp [hx])
    simp [List.takeWhile_cons, List.dropWhile_cons, hc, this]

theorem digits1_complete (d r : Str) (hd : Digits d) (hr : NoDigit r) : digits1 (d ++ r) = some (d, r) := by
  obtain ⟨h1, h2⟩ := takeWhile_all isDigit d r (fun c hc => (isDigit_iff c).2 (hd.2 c hc)) hr
  unfold digits1
  rw [h1, h2]
  have := hd.1
  cases d with
  | nil => exact absurd rfl this
  | cons c t => simp

theorem takeWhile_isEmpty (r : Str) (h : (r.takeWhile isDigit).isEmpty = true) : NoDigit r := by
  intro c t hr
  subst hr
  by_contra hc
  simp [List.takeWhile_cons, hc] at h

theorem numInt_sound (s i r : Str) (h : numInt s = some (i, r)) :
    s = i ++ r ∧ (i = ['0'] ∨ (Digits i ∧ ∀ t, i ≠ '0' :: t)) ∧ NoDigit r := by
  match s, h with
  | c :: t, h =>
    rw [numInt] at h
    split at h
    · rename_i hc
      split at h
      · rename_i he
        simp only [Option.some.injEq, Prod.mk.injEq] at h
        obtain ⟨rfl, rfl⟩ := h
        exact ⟨by rw [hc]; rfl, Or.inl rfl, takeWhile_isEmpty _ he⟩
      · cases h
    · rename_i hc
      obtain ⟨h1, h2, h3⟩ := digits1_sound _ _ _ h
      refine ⟨h1, Or.inr ⟨h2, ?_⟩, h3⟩
      intro u hu
      rw [hu] at h1
      simp only [List.cons_append, List.cons.injEq] at h1
      exact hc h1.1

theorem numInt_complete (i r : Str) (hi : i = ['0'] ∨ (Digits i ∧ ∀ t, i ≠ '0' :: t)) (hr : NoDigit r) :
    numInt (i ++ r) = some (i, r) := by
  rcases hi with rfl | ⟨hd, h0⟩
  · have : (r.takeWhile isDigit).isEmpty = true := by
      cases r with
      | nil => rfl
      | cons c t => simp [List.takeWhile_cons, hr c t rfl]
    simp [numInt, this]
  · have hne := hd.1
    match i, hne with
    | c :: t, _ =>
      have hc : c ≠ '0' := fun hc => h0 t (by rw [hc])
      rw [List.cons_append, numInt, if_neg hc, ← List.cons_append]
      exact digits1_complete _ _ hd hr

theorem numFrac_sound (s f r : Str) (h : numFrac s = some (f, r)) (hs : NoDigit s) :
    s = f ++ r ∧ (f = [] ∨ ∃ d, f = '.' :: d ∧ Digits d) ∧ NoDigit r := by
  match s, h with
  | [], h => simp only [numFrac, Option.some.injEq, Prod.mk.injEq] at h; obtain ⟨rfl, rfl⟩ := h; exact ⟨rfl, Or.inl rfl, hs⟩
  | c :: t, h =>
    rw [numFrac] at h
    split at h
    · rename_i hc
      cases hd : digits1 t with
      | none => simp [hd] at h
      | some p =>
        obtain ⟨d, r'⟩ := p
        simp only [hd, Option.map_some, Option.some.injEq, Prod.mk.injEq] at h
        obtain ⟨rfl, rfl⟩ := h
        obtain ⟨h1, h2, h3⟩ := digits1_sound _ _ _ hd
        exact ⟨by rw [h1, hc]; rfl, Or.inr ⟨d, rfl, h2⟩, h3⟩
    · simp only [Option.some.injEq, Prod.mk.injEq] at h
      obtain ⟨rfl, rfl⟩ := h
      exact ⟨rfl, Or.inl rfl, hs⟩

theorem numFrac_complete (f r : Str) (hf : f = [] ∨ ∃ d, f = '.' :: d ∧ Digits d) (hr : NoDigit r)
    (hp : ∀ t, r ≠ '.' :: t) : numFrac (f ++ r) = some (f, r) := by
  rcases hf with rfl | ⟨d, rfl, hd⟩
  · cases r with
    | nil => rfl
    | cons c t => simp [numFrac, show c ≠ '.' from fun hc => hp t (by rw [hc])]
  · simp [numFrac, digits1_complete d r hd hr]

/-- The exponent part of a number. -/
def IsExp (e : Str) : Prop :=
  e = [] ∨ ∃ x g d, e = x :: g ++ d ∧ (x = 'e' ∨ x = 'E') ∧ (g = [] ∨ g = ['+'] ∨ g = ['-']) ∧ Digits d

theorem expSign_split (s : Str) : s = (expSign s).1 ++ (expSign s).2 ∧
    ((expSign s).1 = [] ∨ (expSign s).1 = ['+'] ∨ (expSign s).1 = ['-']) := by
  cases s with
  | nil => simp [expSign]
  | cons c t =>
    simp only [expSign]
    by_cases hc : c = '+' ∨ c = '-'
    · rw [if_pos hc]
      rcases hc with rfl | rfl <;> simp
    · rw [if_neg hc]; simp

theorem numExp_sound (s e r : Str) (h : numExp s = some (e, r)) : s = e ++ r ∧ IsExp e := by
  match s, h with
  | [], h => simp only [numExp, Option.some.injEq, Prod.mk.injEq] at h; obtain ⟨rfl, rfl⟩ := h; exact ⟨rfl, Or.inl rfl⟩
  | c :: t, h =>
    rw [numExp] at h
    split at h
    · rename_i hc
      cases hd : digits1 (expSign t).2 with
      | none => simp [hd] at h
      | some p =>
        obtain ⟨d, r'⟩ := p
        simp only [hd, Option.map_some, Option.some.injEq, Prod.mk.injEq] at h
        obtain ⟨rfl, rfl⟩ := h
        obtain ⟨h1, h2, _⟩ := digits1_sound _ _ _ hd
        obtain ⟨h4, h5⟩ := expSign_split t
        refine ⟨?_, Or.inr ⟨c, (expSign t).1, d, rfl, hc, h5, h2⟩⟩
        rw [List.cons_append, List.cons_append, List.append_assoc, ← h1, ← h4]
    · simp only [Option.some.injEq, Prod.mk.injEq] at h
      obtain ⟨rfl, rfl⟩ := h
      exact ⟨rfl, Or.inl rfl⟩

theorem digits_head (d : Str) (h : Digits d) : ∃ c t, d = c :: t ∧ isDigit c = true := by
  match d, h with
  | c :: t, h => exact ⟨c, t, rfl, (isDigit_iff c).2 (h.2 c (by simp))⟩
  | [], h => exact absurd rfl h.1

theorem numExp_complete (e r : Str) (he : IsExp e) (hr : NoDigit r) (hp : ∀ c t, r = c :: t → c ≠ 'e' ∧ c ≠ 'E') :
    numExp (e ++ r) = some (e, r) := by
  rcases he with rfl | ⟨x, g, d, rfl, hx, hg, hd⟩
  · cases r with
    | nil => rfl
    | cons c t => have := hp c t rfl; simp [numExp, this]
  · have hs : expSign (g ++ d ++ r) = (g, d ++ r) := by
      obtain ⟨c, t, hd', hc⟩ := digits_head d hd
      rcases hg with rfl | rfl | rfl
      · rw [hd', List.nil_append, List.cons_append, expSign, if_neg ?_]
        rintro (rfl | rfl) <;> revert hc <;> decide
      · simp [expSign]
      · simp [expSign]
    rw [List.cons_append, List.cons_append, numExp, if_pos hx, hs]
    simp [digits1_complete d r hd hr]

theorem frac_nodigit (f e r : Str) (hf : f = [] ∨ ∃ d, f = '.' :: d ∧ Digits d) (h : NoDigit (e ++ r)) :
    NoDigit (f ++ (e ++ r)) := by
  rcases hf with rfl | ⟨d, rfl, _⟩
  · simpa using h
  · intro c t hc
    simp only [List.cons_append, List.cons.injEq] at hc
    rw [← hc.1]; rfl

/-- What may follow a number without being read as part of it. -/
def Stop (r : Str) : Prop := ∀ c t, r = c :: t → isDigit c = false ∧ c ≠ '.' ∧ c ≠ 'e' ∧ c ≠ 'E'

theorem numAbs_sound (s t r : Str) (h : numAbs s = some (t, r)) : s = t ++ r ∧ IsNumber t ∧ IsNumber ('-' :: t) := by
  unfold numAbs at h
  cases hi : numInt s with
  | none => simp [hi] at h
  | some p =>
    obtain ⟨i, s1⟩ := p
    simp only [hi] at h
    cases hf : numFrac s1 with
    | none => simp [hf] at h
    | some p =>
      obtain ⟨f, s2⟩ := p
      simp only [hf] at h
      cases he : numExp s2 with
      | none => simp [he] at h
      | some p =>
        obtain ⟨e, s3⟩ := p
        simp only [he, Option.some.injEq, Prod.mk.injEq] at h
        obtain ⟨rfl, rfl⟩ := h
        obtain ⟨a1, a2, a3⟩ := numInt_sound _ _ _ hi
        obtain ⟨b1, b2, b3⟩ := numFrac_sound _ _ _ hf a3
        obtain ⟨c1, c2⟩ := numExp_sound _ _ _ he
        refine ⟨by rw [a1, b1, c1]; simp, ?_, ?_⟩
        · exact ⟨[], i, f, e, by simp, Or.inl rfl, a2, b2, c2⟩
        · exact ⟨['-'], i, f, e, by simp, Or.inr rfl, a2, b2, c2⟩

theorem exp_head (e r : Str) (he : IsExp e) (hr : Stop r) : ∀ c t, e ++ r = c :: t → isDigit c = false ∧ c ≠ '.' := by
  intro c t h
  rcases he with rfl | ⟨x, g, d, rfl, hx, _, _⟩
  · exact ⟨(hr c t h).1, (hr c t h).2.1⟩
  · simp only [List.cons_append, List.cons.injEq] at h
    rw [← h.1]
    rcases hx with rfl | rfl <;> decide

theorem numAbs_complete (i f e r : Str) (hi : i = ['0'] ∨ (Digits i ∧ ∀ t, i ≠ '0' :: t))
    (hf : f = [] ∨ ∃ d, f = '.' :: d ∧ Digits d) (he : IsExp e) (hr : Stop r) :
    numAbs (i ++ f ++ e ++ r) = some (i ++ f ++ e, r) := by
  have h1 := exp_head e r he hr
  have hrd : NoDigit r := fun c t h => (hr c t h).1
  have n1 : NoDigit (e ++ r) := fun c t h => (h1 c t h).1
  unfold numAbs
  rw [show i ++ f ++ e ++ r = i ++ (f ++ (e ++ r)) by simp, numInt_complete i _ hi (frac_nodigit f e r hf n1)]
  simp only
  rw [numFrac_complete f _ hf n1 (fun t h => (h1 '.' t h).2 rfl)]
  simp only
  rw [numExp_complete e r he hrd (fun c t h => (hr c t h).2.2)]

theorem pNum_sound (s t r : Str) (h : pNum s = some (t, r)) : s = t ++ r ∧ IsNumber t := by
  match s, h with
  | c :: u, h =>
    rw [pNum] at h
    split at h
    · rename_i hc
      cases hn : numAbs u with
      | none => simp [hn] at h
      | some p =>
        obtain ⟨t', r'⟩ := p
        simp only [hn, Option.map_some, Option.some.injEq, Prod.mk.injEq] at h
        obtain ⟨rfl, rfl⟩ := h
        obtain ⟨h1, _, h3⟩ := numAbs_sound _ _ _ hn
        exact ⟨by rw [h1, hc]; rfl, h3⟩
    · obtain ⟨h1, h2, _⟩ := numAbs_sound _ _ _ h
      exact ⟨h1, h2⟩

theorem int_head (i : Str) (hi : i = ['0'] ∨ (Digits i ∧ ∀ t, i ≠ '0' :: t)) : ∃ c t, i = c :: t ∧ isDigit c = true := by
  rcases hi with rfl | ⟨h, _⟩
  · exact ⟨'0', [], rfl, rfl⟩
  · exact digits_head i h

/-- The first character of a number. -/
theorem number_head (s : Str) (h : IsNumber s) : ∃ c t, s = c :: t ∧ (c = '-' ∨ isDigit c = true) := by
  obtain ⟨sg, i, f, e, rfl, hs, hi, _, _⟩ := h
  obtain ⟨c, t, rfl, hc⟩ := int_head i hi
  rcases hs with rfl | rfl
  · exact ⟨c, t ++ f ++ e, by simp, Or.inr hc⟩
  · exact ⟨'-', c :: t ++ f ++ e, by simp, Or.inl rfl⟩

theorem pNum_complete (t r : Str) (h : IsNumber t) (hr : Stop r) : pNum (t ++ r) = some (t, r) := by
  obtain ⟨sg, i, f, e, rfl, hs, hi, hf, he⟩ := h
  rcases hs with rfl | rfl
  · obtain ⟨c, u, hi', hc⟩ := int_head i hi
    have hm : c ≠ '-' := by rintro rfl; revert hc; decide
    have := numAbs_complete i f e r hi hf he hr
    subst hi'
    simp only [List.nil_append, List.cons_append] at this ⊢
    rw [pNum, if_neg hm]
    exact this
  · have := numAbs_complete i f e r hi hf he hr
    simp only [List.cons_append, List.nil_append]
    rw [pNum, if_pos rfl]
    simp only [List.append_assoc] at this ⊢
    rw [this]; rfl

/-! ## Values -/

theorem prefix_split (p s : Str) (h : p.isPrefixOf s = true) : s = p ++ s.drop p.length := by
  obtain ⟨t, rfl⟩ := List.isPrefixOf_iff_prefix.1 h
  simp

theorem pScalar_sound (s r : Str) (j : Json) (h : pScalar s = some (j, r)) : ∃ t, s = t ++ r ∧ IsValue t j := by
  unfold pScalar at h
  split at h
  · rename_i hp
    simp only [Option.some.injEq, Prod.mk.injEq] at h
    obtain ⟨rfl, rfl⟩ := h
    exact ⟨_, prefix_split _ _ hp, .null⟩
  split at h
  · rename_i hp
    simp only [Option.some.injEq, Prod.mk.injEq] at h
    obtain ⟨rfl, rfl⟩ := h
    exact ⟨_, prefix_split _ _ hp, .tru⟩
  split at h
  · rename_i hp
    simp only [Option.some.injEq, Prod.mk.injEq] at h
    obtain ⟨rfl, rfl⟩ := h
    exact ⟨_, prefix_split _ _ hp, .fls⟩
  cases hn : pNum s with
  | none => simp [hn] at h
  | some p =>
    obtain ⟨t, r'⟩ := p
    simp only [hn, Option.map_some, Option.some.injEq, Prod.mk.injEq] at h
    obtain ⟨rfl, rfl⟩ := h
    obtain ⟨h1, h2⟩ := pNum_sound _ _ _ hn
    exact ⟨t, h1, .num h2⟩

/-- Soundness of the three mutually recursive readers. -/
theorem val_sound (k : Str) :
    (∀ s j r, pVal k s = some (j, r) → ∃ t, s = t ++ r ∧ IsValue t j) ∧
    (∀ s l r, pElems k s = some (l, r) → ∃ t, s = t ++ ']' :: r ∧ IsElements t l) ∧
    (∀ s l r, pMembers k s = some (l, r) → ∃ t, s = t ++ '}' :: r ∧ IsMembers t l) := by
  induction k with
  | nil =>
    refine ⟨?_, ?_, ?_⟩
    · intro s j r h; rw [pVal] at h; cases h
    · intro s j r h; rw [pElems] at h; cases h
    · intro s j r h; rw [pMembers] at h; cases h
  | cons k0 k ih =>
    obtain ⟨ihv, ihe, ihm⟩ := ih
    refine ⟨?_, ?_, ?_⟩
    · intro s j r h
      match s, h with
      | [], h => rw [pVal] at h; cases h
      | c :: u, h =>
        rw [pVal] at h
        split at h
        · rename_i hc
          subst hc
          cases hs : pStr k u with
          | none => simp [hs] at h
          | some p =>
            obtain ⟨v, r'⟩ := p
            simp only [hs, Option.map_some, Option.some.injEq, Prod.mk.injEq] at h
            obtain ⟨rfl, rfl⟩ := h
            obtain ⟨t, h1, h2⟩ := pStr_sound _ _ _ _ hs
            exact ⟨t, h2, .str h1⟩
        split at h
        · rename_i hc
          subst hc
          obtain ⟨w, hw, hu⟩ := skipWs_split u
          cases hsk : skipWs u with
          | nil => simp [hsk] at h
          | cons d r' =>
            simp only [hsk] at h
            split at h
            · rename_i hd
              simp only [Option.some.injEq, Prod.mk.injEq] at h
              obtain ⟨rfl, rfl⟩ := h
              refine ⟨'[' :: w ++ [']'], ?_, .arrNil hw⟩
              rw [hu, hsk, hd]; simp
            · cases he : pElems k u with
              | none => simp [he] at h
              | some p =>
                obtain ⟨l, r''⟩ := p
                simp only [he, Option.map_some, Option.some.injEq, Prod.mk.injEq] at h
                obtain ⟨rfl, rfl⟩ := h
                obtain ⟨t, h1, h2⟩ := ihe _ _ _ he
                exact ⟨'[' :: t ++ [']'], by rw [h1]; simp, .arr h2⟩
        split at h
        · rename_i hc
          subst hc
          obtain ⟨w, hw, hu⟩ := skipWs_split u
          cases hsk : skipWs u with
          | nil => simp [hsk] at h
          | cons d r' =>
            simp only [hsk] at h
            split at h
            · rename_i hd
              simp only [Option.some.injEq, Prod.mk.injEq] at h
              obtain ⟨rfl, rfl⟩ := h
              refine ⟨'{' :: w ++ ['}'], ?_, .objNil hw⟩
              rw [hu, hsk, hd]; simp
            · cases he : pMembers k u with
              | none => simp [he] at h
              | some p =>
                obtain ⟨l, r''⟩ := p
                simp only [he, Option.map_some, Option.some.injEq, Prod.mk.injEq] at h
                obtain ⟨rfl, rfl⟩ := h
                obtain ⟨t, h1, h2⟩ := ihm _ _ _ he
                exact ⟨'{' :: t ++ ['}'], by rw [h1]; simp, .obj h2⟩
        · exact pScalar_sound _ _ _ h
    · intro s l r h
      rw [pElems] at h
      obtain ⟨w1, hw1, hs⟩ := skipWs_split s
      cases hv : pVal k (skipWs s) with
      | none => simp [hv] at h
      | some p =>
        obtain ⟨j, r1⟩ := p
        simp only [hv] at h
        obtain ⟨t, h1, h2⟩ := ihv _ _ _ hv
        obtain ⟨w2, hw2, hr1⟩ := skipWs_split r1
        cases hsk : skipWs r1 with
        | nil => simp [hsk] at h
        | cons c r2 =>
          simp only [hsk] at h
          split at h
          · rename_i hc
            cases he : pElems k r2 with
            | none => simp [he] at h
            | some p =>
              obtain ⟨l', r3⟩ := p
              simp only [he, Option.map_some, Option.some.injEq, Prod.mk.injEq] at h
              obtain ⟨rfl, rfl⟩ := h
              obtain ⟨t', h3, h4⟩ := ihe _ _ _ he
              refine ⟨w1 ++ t ++ w2 ++ ',' :: t', ?_, .cons hw1 h2 hw2 h4⟩
              rw [hs, h1, hr1, hsk, hc, h3]; simp
          · split at h
            · rename_i hc
              simp only [Option.some.injEq, Prod.mk.injEq] at h
              obtain ⟨rfl, rfl⟩ := h
              refine ⟨w1 ++ t ++ w2, ?_, .one hw1 h2 hw2⟩
              rw [hs, h1, hr1, hsk, hc]; simp
            · cases h
    · intro s l r h
      rw [pMembers] at h
      obtain ⟨w1, hw1, hs⟩ := skipWs_split s
      cases hsk : skipWs s with
      | nil => simp [hsk] at h
      | cons q u =>
        simp only [hsk] at h
        split at h
        · rename_i hq
          subst hq
          cases hk : pStr k u with
          | none => simp [hk] at h
          | some p =>
            obtain ⟨key, r1⟩ := p
            simp only [hk] at h
            obtain ⟨kt, hkt, hu⟩ := pStr_sound _ _ _ _ hk
            obtain ⟨w2, hw2, hr1⟩ := skipWs_split r1
            cases hsk1 : skipWs r1 with
            | nil => simp [hsk1] at h
            | cons c r2 =>
              simp only [hsk1] at h
              split at h
              · rename_i hc
                subst hc
                obtain ⟨w3, hw3, hr2⟩ := skipWs_split r2
                cases hv : pVal k (skipWs r2) with
                | none => simp [hv] at h
                | some p =>
                  obtain ⟨j, r3⟩ := p
                  simp only [hv] at h
                  obtain ⟨t, h1, h2⟩ := ihv _ _ _ hv
                  obtain ⟨w4, hw4, hr3⟩ := skipWs_split r3
                  cases hsk3 : skipWs r3 with
                  | nil => simp [hsk3] at h
                  | cons c r4 =>
                    simp only [hsk3] at h
                    split at h
                    · rename_i hc
                      cases he : pMembers k r4 with
                      | none => simp [he] at h
                      | some p =>
                        obtain ⟨l', r5⟩ := p
                        simp only [he, Option.map_some, Option.some.injEq, Prod.mk.injEq] at h
                        obtain ⟨rfl, rfl⟩ := h
                        obtain ⟨t', h3, h4⟩ := ihm _ _ _ he
                        refine ⟨w1 ++ kt ++ w2 ++ ':' :: w3 ++ t ++ w4 ++ ',' :: t', ?_, .cons hw1 hkt hw2 hw3 h2 hw4 h4⟩
                        rw [hs, hsk, hu, hr1, hsk1, hr2, h1, hr3, hsk3, hc, h3]; simp
                    · split at h
                      · rename_i hc
                        simp only [Option.some.injEq, Prod.mk.injEq] at h
                        obtain ⟨rfl, rfl⟩ := h
                        refine ⟨w1 ++ kt ++ w2 ++ ':' :: w3 ++ t ++ w4, ?_, .one hw1 hkt hw2 hw3 h2 hw4⟩
                        rw [hs, hsk, hu, hr1, hsk1, hr2, h1, hr3, hsk3, hc]; simp
                      · cases h
              · cases h
        · cases h

/-- The first character of a value. -/
theorem value_head (s : Str) (j : Json) (h : IsValue s j) : ∃ c t, s = c :: t ∧ isWs c = false ∧ c ≠ ']' ∧ c ≠ '}' := by
  cases h with
  | null => exact ⟨'n', _, rfl, by decide⟩
  | tru => exact ⟨'t', _, rfl, by decide⟩
  | fls => exact ⟨'f', _, rfl, by decide⟩
  | num hn =>
    obtain ⟨c, t, rfl, hc⟩ := number_head _ hn
    refine ⟨c, t, rfl, ?_⟩
    rcases hc with rfl | hc
    · decide
    · simp only [isDigit, Bool.and_eq_true, decide_eq_true_eq] at hc
      have h1 : (48 : Nat) ≤ c.toNat := hc.1
      have h2 : c.toNat ≤ 57 := hc.2
      refine ⟨?_, ?_, ?_⟩
      · simp only [isWs, Bool.or_eq_false_iff, beq_eq_false_iff_ne]; omega
      · rintro rfl; exact absurd h2 (by decide)
      · rintro rfl; exact absurd h2 (by decide)
  | str hs =>
    obtain ⟨b, l, rfl, _⟩ := hs
    exact ⟨'"', b ++ ['"'], rfl, by decide⟩
  | arrNil _ => exact ⟨'[', _, rfl, by decide⟩
  | arr _ => exact ⟨'[', _, rfl, by decide⟩
  | objNil _ => exact ⟨'{', _, rfl, by decide⟩
  | obj _ => exact ⟨'{', _, rfl, by decide⟩

theorem ws_stop (w : Str) (c : Char) (r : Str) (hw : Ws w) (hc : isDigit c = false ∧ c ≠ '.' ∧ c ≠ 'e' ∧ c ≠ 'E') :
    Stop (w ++ c :: r) := by
  intro d t h
  cases w with
  | nil =>
    simp only [List.nil_append, List.cons.injEq] at h
    rw [← h.1]; exact hc
  | cons x w =>
    simp only [List.cons_append, List.cons.injEq] at h
    rw [← h.1]
    rcases hw x (by simp) with rfl | rfl | rfl | rfl <;> decide

theorem skip_value (w s r : Str) (j : Json) (hw : Ws w) (h : IsValue s j) : skipWs (w ++ (s ++ r)) = s ++ r := by
  obtain ⟨c, t, rfl, hc, _⟩ := value_head s j h
  rw [skipWs_append _ _ hw, List.cons_append, skipWs_cons _ _ hc]

theorem skip_char (w : Str) (c : Char) (r : Str) (hw : Ws w) (hc : isWs c = false) : skipWs (w ++ c :: r) = c :: r := by
  rw [skipWs_append _ _ hw, skipWs_cons _ _ hc]

theorem pScalar_num (s r : Str) (h : IsNumber s) (hr : Stop r) : pScalar (s ++ r) = some (.num s, r) := by
  obtain ⟨c, t, hs, hc⟩ := number_head s h
  have hn : ∀ x p, isDigit x = false → x ≠ '-' → (x :: p : Str).isPrefixOf (s ++ r) = false := by
    intro x p hx hm
    rw [hs, List.cons_append, List.isPrefixOf]
    have : x ≠ c := by
      rintro rfl
      rcases hc with hc | hc
      · exact hm hc
      · rw [hc] at hx; cases hx
    simp [this]
  unfold pScalar
  rw [hn 'n' c!"ull" (by decide) (by decide), hn 't' c!"rue" (by decide) (by decide), hn 'f' c!"alse" (by decide) (by decide),
    pNum_complete s r h hr]
  simp

/-- Completeness of the three readers, by the length of the text. -/
theorem val_complete (n : Nat) :
    (∀ s j, s.length ≤ n → IsValue s j → ∀ k r, s.length < k.length → Stop r → pVal k (s ++ r) = some (j, r)) ∧
    (∀ s l, s.length ≤ n → IsElements s l → ∀ k r, s.length + 1 < k.length → pElems k (s ++ ']' :: r) = some (l, r)) ∧
    (∀ s l, s.length ≤ n → IsMembers s l → ∀ k r, s.length + 1 < k.length → pMembers k (s ++ '}' :: r) = some (l, r)) := by
  induction n with
  | zero =>
    refine ⟨?_, ?_, ?_⟩
    · intro s j hs h
      obtain ⟨c, t, rfl, _⟩ := value_head s j h
      simp at hs
    · intro s l hs h
      cases h with
      | one _ hv _ => obtain ⟨c, t, rfl, _⟩ := value_head _ _ hv; simp at hs
      | cons _ hv _ _ => obtain ⟨c, t, rfl, _⟩ := value_head _ _ hv; simp at hs
    · intro s l hs h
      cases h with
      | one _ _ _ _ hv _ => obtain ⟨c, t, rfl, _⟩ := value_head _ _ hv; simp at hs
      | cons _ _ _ _ hv _ _ => obtain ⟨c, t, rfl, _⟩ := value_head _ _ hv; simp at hs
  | succ n ih =>
    obtain ⟨ihv, ihe, ihm⟩ := ih
    have hV : ∀ s j, s.length ≤ n + 1 → IsValue s j → ∀ k r, s.length < k.length → Stop r →
        pVal k (s ++ r) = some (j, r) := by
      intro s j hs h k r hk hr
      match k, hk with
      | k0 :: k, hk =>
        cases h with
        | null => rfl
        | tru => rfl
        | fls => rfl
        | num hn =>
          obtain ⟨c, t, hst, hc⟩ := number_head _ hn
          have hsc := pScalar_num s r hn hr
          subst hst
          rw [List.cons_append] at hsc ⊢
          have h1 : c ≠ '"' ∧ c ≠ '[' ∧ c ≠ '{' := by
            refine ⟨?_, ?_, ?_⟩ <;> rintro rfl <;> revert hc <;> decide
          rw [pVal, if_neg h1.1, if_neg h1.2.1, if_neg h1.2.2]
          exact hsc
        | str hstr =>
          obtain ⟨u, hu, hp⟩ := pStr_complete _ _ hstr k r (by simpa [Nat.lt_succ_iff] using hk)
          rw [hu, pVal, if_pos rfl, hp]; rfl
        | @arrNil w hw =>
          have : skipWs (w ++ ']' :: r) = ']' :: r := skip_char w ']' r hw (by decide)
          simp only [List.cons_append, List.append_assoc, List.nil_append]
          rw [pVal, if_neg (by decide), if_pos rfl, this]
          simp
        | @arr s l he =>
          have hp := ihe s l (by simp at hs; omega) he k r (by simp at hk; omega)
          have hsk : ∃ c t, skipWs (s ++ ']' :: r) = c :: t ∧ c ≠ ']' := by
            cases he with
            | @one w1 s' j w2 hw1 hv hw2 =>
              obtain ⟨c, t, ht, _, hc, _⟩ := value_head _ _ hv
              rw [show w1 ++ s' ++ w2 ++ ']' :: r = w1 ++ (s' ++ (w2 ++ ']' :: r)) by simp, skip_value _ _ _ _ hw1 hv, ht]
              exact ⟨c, _, rfl, hc⟩
            | @cons w1 s' j w2 r' l' hw1 hv hw2 _ =>
              obtain ⟨c, t, ht, _, hc, _⟩ := value_head _ _ hv
              rw [show w1 ++ s' ++ w2 ++ ',' :: r' ++ ']' :: r = w1 ++ (s' ++ (w2 ++ ',' :: r' ++ ']' :: r)) by simp,
                skip_value _ _ _ _ hw1 hv, ht]
              exact ⟨c, _, rfl, hc⟩
          obtain ⟨c, t, hsk, hc⟩ := hsk
          simp only [List.cons_append, List.append_assoc, List.nil_append]
          rw [pVal, if_neg (by decide), if_pos rfl, hsk]
          simp only
          rw [if_neg hc, hp]; rfl
        | @objNil w hw =>
          have : skipWs (w ++ '}' :: r) = '}' :: r := skip_char w '}' r hw (by decide)
          simp only [List.cons_append, List.append_assoc, List.nil_append]
          rw [pVal, if_neg (by decide), if_neg (by decide), if_pos rfl, this]
          simp
        | @obj s l he =>
          have hp := ihm s l (by simp at hs; omega) he k r (by simp at hk; omega)
          have hsk : ∃ c t, skipWs (s ++ '}' :: r) = c :: t ∧ c ≠ '}' := by
            cases he with
            | @one w1 kt key w2 w3 s' j w4 hw1 hkt hw2 hw3 hv hw4 =>
              obtain ⟨b, l, rfl, _⟩ := hkt
              refine ⟨'"', ?_, ?_, by decide⟩
              rotate_left
              · simp only [List.append_assoc, List.cons_append]
                exact skip_char w1 '"' _ hw1 (by decide)
            | @cons w1 kt key w2 w3 s' j w4 r' l' hw1 hkt hw2 hw3 hv hw4 _ =>
              obtain ⟨b, l, rfl, _⟩ := hkt
              refine ⟨'"', ?_, ?_, by decide⟩
              rotate_left
              · simp only [List.append_assoc, List.cons_append]
                exact skip_char w1 '"' _ hw1 (by decide)
          obtain ⟨c, t, hsk, hc⟩ := hsk
          simp only [List.cons_append, List.append_assoc, List.nil_append]
          rw [pVal, if_neg (by decide), if_neg (by decide), if_pos rfl, hsk]
          simp only
          rw [if_neg hc, hp]; rfl
    refine ⟨hV, ?_, ?_⟩
    · intro s l hs h k r hk
      match k, hk with
      | k0 :: k, hk =>
        cases h with
        | @one w1 s j w2 hw1 hv hw2 =>
          rw [show w1 ++ s ++ w2 ++ ']' :: r = w1 ++ (s ++ (w2 ++ ']' :: r)) by simp, pElems,
            skip_value _ _ _ _ hw1 hv,
            hV s j (by simp at hs; omega) hv k _ (by simp at hk; omega) (ws_stop w2 ']' r hw2 (by decide))]
          simp only
          rw [skip_char w2 ']' r hw2 (by decide)]
          simp
        | @cons w1 s j w2 r' l' hw1 hv hw2 hl =>
          obtain ⟨c0, t0, ht0, _⟩ := value_head _ _ hv
          have hpos : 0 < s.length := by rw [ht0]; simp
          rw [show w1 ++ s ++ w2 ++ ',' :: r' ++ ']' :: r = w1 ++ (s ++ (w2 ++ ',' :: (r' ++ ']' :: r))) by simp, pElems,
            skip_value _ _ _ _ hw1 hv,
            hV s j (by simp at hs; omega) hv k _ (by simp at hk; omega) (ws_stop w2 ',' _ hw2 (by decide))]
          simp only
          rw [skip_char w2 ',' _ hw2 (by decide)]
          simp only
          rw [if_pos trivial, ihe r' l' (by simp at hs; omega) hl k r (by simp at hk; omega)]
          rfl
    · intro s l hs h k r hk
      match k, hk with
      | k0 :: k, hk =>
        cases h with
        | @one w1 kt key w2 w3 s j w4 hw1 hkt hw2 hw3 hv hw4 =>
          obtain ⟨u, hu, hp⟩ := pStr_complete kt key hkt k (w2 ++ ':' :: (w3 ++ (s ++ (w4 ++ '}' :: r)))) (by simp at hk; omega)
          rw [show w1 ++ kt ++ w2 ++ ':' :: w3 ++ s ++ w4 ++ '}' :: r =
            w1 ++ (kt ++ (w2 ++ ':' :: (w3 ++ (s ++ (w4 ++ '}' :: r))))) by simp, hu, pMembers,
            skip_char w1 '"' _ hw1 (by decide)]
          simp only
          rw [if_pos trivial, hp]
          simp only
          rw [skip_char w2 ':' _ hw2 (by decide)]
          simp only
          rw [if_pos trivial, skip_value _ _ _ _ hw3 hv,
            hV s j (by simp at hs; omega) hv k _ (by simp at hk; omega) (ws_stop w4 '}' r hw4 (by decide))]
          simp only
          rw [skip_char w4 '}' r hw4 (by decide)]
          simp
        | @cons w1 kt key w2 w3 s j w4 r' l' hw1 hkt hw2 hw3 hv hw4 hl =>
          obtain ⟨u, hu, hp⟩ := pStr_complete kt key hkt k (w2 ++ ':' :: (w3 ++ (s ++ (w4 ++ ',' :: (r' ++ '}' :: r)))))
            (by simp at hk; omega)
          rw [show w1 ++ kt ++ w2 ++ ':' :: w3 ++ s ++ w4 ++ ',' :: r' ++ '}' :: r =
            w1 ++ (kt ++ (w2 ++ ':' :: (w3 ++ (s ++ (w4 ++ ',' :: (r' ++ '}' :: r)))))) by simp, hu, pMembers,
            skip_char w1 '"' _ hw1 (by decide)]
          simp only
          rw [if_pos trivial, hp]
          simp only
          rw [skip_char w2 ':' _ hw2 (by decide)]
          simp only
          rw [if_pos trivial, skip_value _ _ _ _ hw3 hv,
            hV s j (by simp at hs; omega) hv k _ (by simp at hk; omega) (ws_stop w4 ',' _ hw4 (by decide))]
          simp only
          rw [skip_char w4 ',' _ hw4 (by decide)]
          simp only
          rw [if_pos trivial, ihm r' l' (by simp at hs; omega) hl k r (by simp at hk; omega)]
          rfl

/-- The reader accepts exactly the texts of the grammar. -/
theorem parse_iff (s : Str) (j : Json) : Json.parse s = some j ↔ IsText s j := by
  constructor
  · intro h
    unfold Json.parse at h
    obtain ⟨w1, hw1, hs⟩ := skipWs_split s
    cases hv : pVal (' ' :: s) (skipWs s) with
    | none => simp [hv] at h
    | some p =>
      obtain ⟨j', r⟩ := p
      simp only [hv] at h
      split at h
      · rename_i he
        cases h
        obtain ⟨t, h1, h2⟩ := (val_sound _).1 _ _ _ hv
        obtain ⟨w2, hw2, hr⟩ := skipWs_split r
        rw [List.isEmpty_iff.1 he, List.append_nil] at hr
        exact ⟨w1, t, w2, by rw [hs, h1, hr]; simp, hw1, h2, hw2⟩
      · cases h
  · rintro ⟨w1, v, w2, rfl, hw1, hv, hw2⟩
    have hstop : Stop w2 := by
      intro c t h
      rcases hw2 c (by simp [h]) with rfl | rfl | rfl | rfl <;> decide
    unfold Json.parse
    rw [show skipWs (w1 ++ v ++ w2) = v ++ w2 by
        rw [List.append_assoc]; exact skip_value _ _ _ _ hw1 hv,
      (val_complete v.length).1 v j le_rfl hv _ w2 (by simp; omega) hstop]
    simp only
    rw [skipWs_ws w2 hw2]; rfl

end Verif.Lemmas
