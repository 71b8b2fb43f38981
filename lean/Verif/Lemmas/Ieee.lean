import Verif.Lemmas.Round
import Verif.Lemmas.Conditions

/-!
# The rounding of the model is that of IEEE 754
-/

namespace Verif.Sem
open Verif Uts35 Spec

attribute [local irreducible] Flt.ofRat Flt.roundMag Flt.ofDec

/-- A significand and exponent as IEEE 754 stores them are determined by the number. -/
theorem canonical_unique (P c e c' e' : Nat) (hc : c < 2 ^ P) (hn : e = 0 ∨ 2 ^ (P - 1) ≤ c) (hc' : c' < 2 ^ P)
    (hn' : e' = 0 ∨ 2 ^ (P - 1) ≤ c') (hP : 0 < P) (h : c * 2 ^ e = c' * 2 ^ e') : c = c' ∧ e = e' := by
  have key : ∀ c e c' e', c < 2 ^ P → (e' = 0 ∨ 2 ^ (P - 1) ≤ c') → c * 2 ^ e = c' * 2 ^ e' → ¬ e < e' := by
    intro c e c' e' hc hn' h hlt
    have e1 : 2 ^ e' = 2 ^ (e' - e) * 2 ^ e := by rw [← Nat.pow_add]; congr 1; omega
    rw [e1, ← Nat.mul_assoc] at h
    have h1 := Nat.eq_of_mul_eq_mul_right (Nat.two_pow_pos e) h
    have h2 : 2 ≤ 2 ^ (e' - e) := by
      calc 2 = 2 ^ 1 := rfl
        _ ≤ _ := Nat.pow_le_pow_right (by omega) (by omega)
    have h3 : 2 ^ P = 2 ^ (P - 1) * 2 := by rw [← pow_succ]; congr 1; omega
    have h4 : 2 ^ (P - 1) ≤ c' := hn'.resolve_left (by omega)
    have := Nat.mul_le_mul h4 h2
    omega
  have he : e = e' := by
    have := key c e c' e' hc hn' h
    have := key c' e' c e hc' hn h.symm
    omega
  subst he
  exact ⟨Nat.eq_of_mul_eq_mul_right (Nat.two_pow_pos e) h, rfl⟩

theorem representable_even {F : Fmt} {m : Nat} (h : EvenLast F m) : Representable F m := by
  obtain ⟨c, e, h1, -, h2, -⟩ := h; exact ⟨c, e, h1, h2⟩

/-- Of two neighbours with even last digits, none. -/
theorem even_apart {F : Fmt} (hP : 0 < F.prec) {m m' : Nat} (h : EvenLast F m) (h' : EvenLast F m') (hlt : m < m') :
    ∃ x, Representable F x ∧ m < x ∧ x < m' := by
  obtain ⟨c, e, h1, h2, rfl, h3⟩ := h
  obtain ⟨c', e', h1', h2', rfl, h3'⟩ := h'
  have hp : 2 ^ F.prec = 2 ^ (F.prec - 1) * 2 := by rw [← pow_succ]; congr 1; omega
  have hc1 : c + 1 < 2 ^ F.prec := by omega
  have he : e ≤ e' := by
    by_contra hle
    have h4 : 2 ^ (F.prec - 1) ≤ c := h2.resolve_left (by omega)
    have h5 : 2 ^ e = 2 ^ (e - 1 - e') * 2 ^ e' * 2 := by rw [← Nat.pow_add, ← pow_succ]; congr 1; omega
    have h6 : c' * 2 ^ e' ≤ 2 ^ F.prec * 2 ^ e' := Nat.mul_le_mul_right _ h1'.le
    have h7 : 2 ^ (F.prec - 1) * 2 ^ e ≤ c * 2 ^ e := Nat.mul_le_mul_right _ h4
    have h8 : 2 ^ F.prec * 2 ^ e' ≤ 2 ^ (F.prec - 1) * 2 ^ e := by
      rw [hp, h5]
      calc 2 ^ (F.prec - 1) * 2 * 2 ^ e' = 2 ^ (F.prec - 1) * (1 * 2 ^ e' * 2) := by ring
        _ ≤ _ := Nat.mul_le_mul_left _ (Nat.mul_le_mul_right _ (Nat.mul_le_mul_right _ (Nat.two_pow_pos _)))
    omega
  refine ⟨(c + 1) * 2 ^ e, ⟨c + 1, e, hc1, rfl⟩, Nat.mul_lt_mul_of_pos_right (by omega) (Nat.two_pow_pos _), ?_⟩
  have e1 : c' * 2 ^ e' = c' * 2 ^ (e' - e) * 2 ^ e := by rw [Nat.mul_assoc, ← Nat.pow_add]; congr 2; omega
  refine lt_of_le_of_ne ?_ ?_
  · rw [e1] at hlt ⊢
    exact Nat.mul_le_mul_right _ (Nat.lt_of_mul_lt_mul_right hlt)
  · intro heq
    have := (canonical_unique F.prec (c + 1) e c' e' hc1 (h2.imp id (by omega)) h1' h2' hP heq).1
    omega

/-- The rounding that IEEE 754 describes is unique. -/
theorem ieee_unique (F : Fmt) (hP : 0 < F.prec) (y : ℚ) (x x' : Flt) (h : Ieee F y x) (h' : Ieee F y x') : x = x' := by
  cases h with
  | overflow h =>
    cases h' with
    | overflow h' => rfl
    | finite m' h' => exact absurd h (not_le.2 h')
  | finite m h h1 h2 h3 =>
    cases h' with
    | overflow h' => exact absurd h' (not_le.2 h)
    | finite m' h' h1' h2' h3' =>
      by_contra hne
      have hne : m ≠ m' := by rintro rfl; exact hne rfl
      have hd : distance F m y = distance F m' y := le_antisymm (h2 m' h1') (h2' m h1)
      have he := h3 m' h1' (Ne.symm hne) hd.symm
      have he' := h3' m h1 hne hd
      -- strictly between them there is a nearer one
      have key : ∀ a b : Nat, EvenLast F a → EvenLast F b → distance F a y = distance F b y → (∀ z, Representable F z → distance F a y ≤ distance F z y) →
          ¬ a < b := by
        intro a b ha hb hab hmin hlt
        obtain ⟨z, hz, h4, h5⟩ := even_apart hP ha hb hlt
        have h6 := hmin z hz
        have hS : (0 : ℚ) < 2 ^ F.scale := by positivity
        have h7 : (a : ℚ) / 2 ^ F.scale < (z : ℚ) / 2 ^ F.scale := div_lt_div_of_pos_right (by exact_mod_cast h4) hS
        have h8 : (z : ℚ) / 2 ^ F.scale < (b : ℚ) / 2 ^ F.scale := div_lt_div_of_pos_right (by exact_mod_cast h5) hS
        unfold distance at *
        generalize (a : ℚ) / 2 ^ F.scale = A at *
        generalize (b : ℚ) / 2 ^ F.scale = B at *
        generalize (z : ℚ) / 2 ^ F.scale = Z at *
        rcases abs_cases (A - y) with ⟨h9, _⟩ | ⟨h9, _⟩ <;> rcases abs_cases (B - y) with ⟨h10, _⟩ | ⟨h10, _⟩ <;>
          rcases abs_cases (Z - y) with ⟨h11, _⟩ | ⟨h11, _⟩ <;> linarith
      rcases Nat.lt_or_gt_of_ne hne with hlt | hlt
      · exact key m m' he he' hd h2 hlt
      · exact key m' m he' he hd.symm h2' hlt

theorem rneDiv_odd (a b : Nat) (h : Flt.rneDiv a b % 2 = 1) (hb : 0 < b) :
    2 * (Flt.rneDiv a b * b) < 2 * a + b ∧ 2 * a < 2 * (Flt.rneDiv a b * b) + b := by
  have e := Nat.div_add_mod a b
  have hr := Nat.mod_lt a hb
  unfold Flt.rneDiv at *
  simp only at h ⊢
  rw [Nat.mul_comm] at e
  split_ifs at h ⊢ with h1 h2 h3
  · constructor <;> omega
  · rw [Nat.add_mul, Nat.one_mul]; constructor <;> omega
  · omega
  · omega

/-- A magnitude that is large enough is a multiple of the last place. -/
theorem rep_multiple {F : Fmt} (hP : 0 < F.prec) {m u : Nat} (h : Representable F m) (hm : 2 ^ (F.prec - 1 + u) ≤ m) : 2 ^ u ∣ m := by
  obtain ⟨c, e, hc, rfl⟩ := h
  rcases Nat.lt_or_ge e u with he | he
  · exfalso
    have h1 : c * 2 ^ e < 2 ^ F.prec * 2 ^ e := Nat.mul_lt_mul_of_pos_right hc (Nat.two_pow_pos _)
    rw [← Nat.pow_add] at h1
    have : 2 ^ (F.prec + e) ≤ 2 ^ (F.prec - 1 + u) := Nat.pow_le_pow_right (by omega) (by omega)
    omega
  · exact Dvd.dvd.mul_left (pow_dvd_pow 2 he) c

theorem roundMag_tie (F : Fmt) (hP : 1 < F.prec) (p q : Nat) (hq : 0 < q) (m' : Nat) (hm' : Representable F m')
    (hne : m' ≠ Flt.roundMag F p q)
    (hd : |((m' * q : Nat) : ℤ) - (p * 2 ^ F.scale : Nat)| = |((Flt.roundMag F p q * q : Nat) : ℤ) - (p * 2 ^ F.scale : Nat)|) :
    EvenLast F (Flt.roundMag F p q) := by
  have hP0 : 0 < F.prec := by omega
  unfold Flt.roundMag at *
  simp only at *
  have hb := Flt.ulpExp_bound F hP0 (p * 2 ^ F.scale / q)
  generalize hu : Flt.ulpExp F (p * 2 ^ F.scale / q) = u at *
  generalize p * 2 ^ F.scale = x at *
  have hB : 0 < q * 2 ^ u := Nat.mul_pos hq (Nat.two_pow_pos u)
  have hge : x / q / 2 ^ u ≤ Flt.rneDiv x (q * 2 ^ u) := by
    rw [Nat.div_div_eq_div_mul]; exact Flt.rneDiv_ge _ _
  have hlow : u = 0 ∨ 2 ^ (F.prec - 1) ≤ Flt.rneDiv x (q * 2 ^ u) := by
    rcases hb with ⟨h, -⟩ | ⟨h, -, -⟩
    · exact .inl h
    · right
      refine le_trans ?_ hge
      rw [Nat.le_div_iff_mul_le (Nat.two_pow_pos _), ← Nat.pow_add, Nat.add_comm]; exact h
  have hup : Flt.rneDiv x (q * 2 ^ u) ≤ 2 ^ F.prec := by
    apply Flt.rneDiv_lt_le _ _ _ hB
    have : x / q < 2 ^ (u + F.prec) := by
      rcases hb with ⟨h, h'⟩ | ⟨-, h', -⟩
      · rw [h, Nat.zero_add]; exact h'
      · exact h'
    rw [Nat.div_lt_iff_lt_mul hq, Nat.pow_add] at this
    calc _ < _ := this
      _ = _ := by ring
  rcases Nat.mod_two_eq_zero_or_one (Flt.rneDiv x (q * 2 ^ u)) with hk | hk
  · have hk2 : 2 ∣ Flt.rneDiv x (q * 2 ^ u) := Nat.dvd_of_mod_eq_zero hk
    rcases Nat.lt_or_ge (Flt.rneDiv x (q * 2 ^ u)) (2 ^ F.prec) with h | h
    · exact ⟨_, u, h, hlow, rfl, hk2⟩
    · refine ⟨2 ^ (F.prec - 1), u + 1, Nat.pow_lt_pow_right (by omega) (by omega), .inr (le_refl _), ?_, ?_⟩
      · rw [Nat.le_antisymm hup h, ← Nat.pow_add, ← Nat.pow_add]; congr 1; omega
      · exact dvd_pow_self 2 (by omega)
  · exfalso
    obtain ⟨h1, h2⟩ := rneDiv_odd x (q * 2 ^ u) hk hB
    have e1 : Flt.rneDiv x (q * 2 ^ u) * (q * 2 ^ u) = Flt.rneDiv x (q * 2 ^ u) * 2 ^ u * q := by ring
    rw [e1] at h1 h2
    have hmul : 2 ^ u ∣ Flt.rneDiv x (q * 2 ^ u) * 2 ^ u := Dvd.intro_left _ rfl
    have hm0 : 2 ^ F.prec * 2 ^ u ≥ Flt.rneDiv x (q * 2 ^ u) * 2 ^ u := Nat.mul_le_mul_right _ hup
    generalize Flt.rneDiv x (q * 2 ^ u) * 2 ^ u = m at *
    -- the two are less than a last place apart
    have h3 : (|(m' : ℤ) - m| : ℤ) < 2 ^ u := by
      have h4 : |((m * q : Nat) : ℤ) - x| * 2 < q * 2 ^ u := by
        rcases abs_cases (((m * q : Nat) : ℤ) - x) with ⟨h, -⟩ | ⟨h, -⟩ <;> rw [h] <;> push_cast <;> zify at h1 h2 <;> linarith
      have h5 : |((m' : ℤ) - m)| * q * 2 ≤ |((m' * q : Nat) : ℤ) - x| * 2 + |((m * q : Nat) : ℤ) - x| * 2 := by
        have := abs_sub_le (((m' * q : Nat) : ℤ)) x ((m * q : Nat) : ℤ)
        rw [abs_sub_comm (x : ℤ)] at this
        have e2 : ((m' * q : Nat) : ℤ) - (m * q : Nat) = ((m' : ℤ) - m) * q := by push_cast; ring
        rw [e2, abs_mul, abs_of_nonneg (by positivity : (0 : ℤ) ≤ (q : ℤ))] at this
        linarith
      rw [hd] at h5
      have hq' : (0 : ℤ) < q := by exact_mod_cast hq
      have h6 : |((m' : ℤ) - m)| * q < 2 ^ u * q := by linarith
      exact lt_of_mul_lt_mul_right h6 hq'.le
    have hnm : ¬ 2 ^ u ∣ m' := by
      intro h
      have h4 : (2 ^ u : ℤ) ∣ (m' : ℤ) - m := by
        apply dvd_sub
        · exact_mod_cast h
        · exact_mod_cast hmul
      have h5 := Int.eq_zero_of_abs_lt_dvd h4 h3
      omega
    have hm'lt : m' < 2 ^ (F.prec - 1 + u) := by
      by_contra h
      exact hnm (rep_multiple hP0 hm' (by omega))
    have hx : 2 ^ (F.prec - 1 + u) * q ≤ x := by
      rcases hb with ⟨h, -⟩ | ⟨h, -, -⟩
      · exact absurd (by rw [h]; simp) hnm
      · rw [Nat.le_div_iff_mul_le hq, Nat.add_comm] at h; exact h
    have hm'x : m' * q < x := lt_of_lt_of_le (Nat.mul_lt_mul_of_pos_right hm'lt hq) hx
    have hmx : x < m * q := by
      rcases abs_cases (((m * q : Nat) : ℤ) - x) with ⟨h, h'⟩ | ⟨h, h'⟩
      · rcases abs_cases (((m' * q : Nat) : ℤ) - x) with ⟨h7, h8⟩ | ⟨h7, h8⟩ <;> omega
      · rcases abs_cases (((m' * q : Nat) : ℤ) - x) with ⟨h7, h8⟩ | ⟨h7, h8⟩
        · omega
        · rw [h, h7] at hd
          have : m' * q = m * q := by omega
          exact absurd (Nat.eq_of_mul_eq_mul_right hq this) hne
    have hL : 2 ^ (F.prec - 1 + u) < m := Nat.lt_of_mul_lt_mul_right (lt_of_le_of_lt hx hmx)
    obtain ⟨k, rfl⟩ := hmul
    have hL2 : 2 ^ (F.prec - 1 + u) + 2 ^ u ≤ 2 ^ u * k := by
      rw [Nat.pow_add, Nat.mul_comm] at hL ⊢
      have := Nat.lt_of_mul_lt_mul_left hL
      calc 2 ^ u * 2 ^ (F.prec - 1) + 2 ^ u = 2 ^ u * (2 ^ (F.prec - 1) + 1) := by ring
        _ ≤ _ := Nat.mul_le_mul_left _ this
    have h9 : (2 : ℤ) ^ u < ((2 ^ u * k : Nat) : ℤ) - m' := by
      have : (2 ^ u : Nat) + m' < 2 ^ u * k := by omega
      have : ((2 ^ u : Nat) : ℤ) + m' < (2 ^ u * k : Nat) := by exact_mod_cast this
      push_cast at this ⊢
      linarith
    rw [abs_sub_comm] at h3
    exact absurd (lt_trans h9 (lt_of_le_of_lt (le_abs_self _) h3)) (lt_irrefl _)

/-- Rounding reaches the first power of two that is no float exactly from the threshold of IEEE 754 on. -/
theorem rnd_overflow (F : Fmt) (hF : F = b64 ∨ F = b32) (y : ℚ) (h0 : 0 ≤ y) :
    2 ^ (F.maxExp + F.scale) ≤ Flt.rnd F y ↔ 2 ^ F.maxExp - 2 ^ F.maxExp / 2 ^ (F.prec + 1) ≤ y := by
  have hP : 0 < F.prec := by rcases hF with rfl | rfl <;> decide
  have hE : F.prec + 1 ≤ F.maxExp := by rcases hF with rfl | rfl <;> decide
  have hT : 2 ^ (F.maxExp + F.scale) ≤ Flt.roundMag F ((2 ^ (F.prec + 1) - 1) * 2 ^ F.maxExp) (2 ^ (F.prec + 1)) := by
    rcases hF with rfl | rfl <;> decide +kernel
  have hPp : (0 : ℚ) < 2 ^ (F.prec + 1) := by positivity
  have h1 : 1 ≤ 2 ^ (F.prec + 1) := Nat.two_pow_pos _
  have eT : (2 : ℚ) ^ F.maxExp - 2 ^ F.maxExp / 2 ^ (F.prec + 1) =
      (((2 ^ (F.prec + 1) - 1) * 2 ^ F.maxExp : Nat) : ℚ) / ((2 ^ (F.prec + 1) : Nat) : ℚ) := by
    push_cast [Nat.cast_sub h1]
    field_simp
  constructor
  · intro h
    by_contra hlt
    rw [not_le] at hlt
    have hr := Flt.rnd_nearest F hP y h0 ((2 ^ F.prec - 1) * 2 ^ (F.maxExp + F.scale - F.prec))
      ⟨2 ^ F.prec - 1, _, Nat.sub_lt (Nat.two_pow_pos _) one_pos, rfl⟩
    have e2 : (((2 ^ F.prec - 1) * 2 ^ (F.maxExp + F.scale - F.prec) : Nat) : ℚ) =
        2 ^ (F.maxExp + F.scale) - 2 ^ (F.maxExp + F.scale) / 2 ^ F.prec := by
      have : (2 : ℚ) ^ (F.maxExp + F.scale) = 2 ^ (F.maxExp + F.scale - F.prec) * 2 ^ F.prec := by
        rw [← pow_add]; congr 1; omega
      rw [this]
      push_cast [Nat.cast_sub (Nat.two_pow_pos F.prec : 1 ≤ 2 ^ F.prec)]
      field_simp
    rw [e2] at hr
    have h' : ((2 ^ (F.maxExp + F.scale) : Nat) : ℚ) ≤ (Flt.rnd F y : ℚ) := by exact_mod_cast h
    push_cast at h'
    have hS : (0 : ℚ) < 2 ^ F.scale := by positivity
    have hY : y * 2 ^ F.scale < 2 ^ (F.maxExp + F.scale) - 2 ^ (F.maxExp + F.scale) / 2 ^ F.prec / 2 := by
      have := mul_lt_mul_of_pos_right hlt hS
      refine lt_of_lt_of_eq this ?_
      rw [pow_succ, show (2 : ℚ) ^ (F.maxExp + F.scale) = 2 ^ F.maxExp * 2 ^ F.scale from pow_add ..]; field_simp
    have hU : (0 : ℚ) < 2 ^ (F.maxExp + F.scale) / 2 ^ F.prec := by positivity
    generalize (2 : ℚ) ^ (F.maxExp + F.scale) / 2 ^ F.prec = U at *
    generalize (2 : ℚ) ^ (F.maxExp + F.scale) = M at *
    generalize y * 2 ^ F.scale = Y at *
    rcases abs_cases ((Flt.rnd F y : ℚ) - Y) with ⟨h3, _⟩ | ⟨h3, _⟩ <;> rcases abs_cases (M - U - Y) with ⟨h4, _⟩ | ⟨h4, _⟩ <;> linarith
  · intro h
    rw [eT] at h
    refine le_trans ?_ (Flt.rnd_mono F hP _ y (by positivity) h)
    rw [Flt.rnd_div F _ _ (by positivity)]
    exact hT

theorem ieee_rnd (F : Fmt) (hF : F = b64 ∨ F = b32) (y : ℚ) (h0 : 0 ≤ y) :
    Ieee F y (if 2 ^ (F.maxExp + F.scale) ≤ Flt.rnd F y then .inf false else .fin false (Flt.rnd F y)) := by
  have hP : 0 < F.prec := by rcases hF with rfl | rfl <;> decide
  have hP1 : 1 < F.prec := by rcases hF with rfl | rfl <;> decide
  have hS : (0 : ℚ) < 2 ^ F.scale := by positivity
  have ed : ∀ m : Nat, distance F m y = |(m : ℚ) - y * 2 ^ F.scale| / 2 ^ F.scale := by
    intro m
    have : (m : ℚ) / 2 ^ F.scale - y = ((m : ℚ) - y * 2 ^ F.scale) / 2 ^ F.scale := by field_simp
    rw [distance, this, abs_div, abs_of_pos hS]
  split_ifs with h
  · exact .overflow ((rnd_overflow F hF y h0).1 h)
  · refine .finite _ (not_le.1 fun h' => h ((rnd_overflow F hF y h0).2 h')) (Flt.rnd_rep F hP y) (fun m' hm' => ?_) (fun m' hm' hne hd => ?_)
    · rw [ed, ed]
      exact div_le_div_of_nonneg_right (Flt.rnd_nearest F hP y h0 m' hm') hS.le
    · rw [ed, ed, div_left_inj' hS.ne'] at hd
      obtain ⟨p, q, hq, rfl⟩ := Flt.exists_frac y h0
      rw [Flt.rnd_div F p q hq] at *
      refine roundMag_tie F hP1 p q hq m' hm' hne ?_
      have hq' : (0 : ℚ) < q := by exact_mod_cast hq
      have key : ∀ r : Nat, |(r : ℚ) - (p : ℚ) / q * 2 ^ F.scale| = ((|((r * q : Nat) : Int) - (p * 2 ^ F.scale : Nat)| : Int) : ℚ) / q := by
        intro r
        have : (r : ℚ) - (p : ℚ) / q * 2 ^ F.scale = ((((r * q : Nat) : Int) - (p * 2 ^ F.scale : Nat) : Int) : ℚ) / q := by
          push_cast; field_simp
        rw [this, abs_div, abs_of_pos hq', ← Int.cast_abs]
      rw [key, key, div_left_inj' hq'.ne'] at hd
      exact_mod_cast hd

theorem ieee_ofRat (F : Fmt) (hF : F = b64 ∨ F = b32) (p q : Nat) (hq : 0 < q) : Ieee F ((p : ℚ) / q) (Flt.ofRat F false p q) := by
  have := ieee_rnd F hF ((p : ℚ) / q) (by positivity)
  rw [Flt.rnd_div F p q hq] at this
  unfold Flt.ofRat
  exact this

theorem ieee_ofDec (F : Fmt) (hF : F = b64 ∨ F = b32) (d : Nat) (e : Int) : Ieee F (d * 10 ^ e) (Flt.ofDec F false d e) := by
  rw [Flt.ofDec_rnd]
  exact ieee_rnd F hF _ (mul_nonneg (Nat.cast_nonneg _) (zpow_nonneg (by norm_num) _))

theorem ieee_ofNat (k : Nat) : Ieee b64 k (Flt.ofNat b64 k) := by
  have := ieee_ofRat b64 (.inl rfl) k 1 one_pos
  rw [Nat.cast_one, div_one] at this
  exact this

theorem ieee_value (d : Dec) : Ieee b64 d.value (Flt.ofRat b64 false (allDigits d) (10 ^ d.v)) := by
  have h : d.value = ((allDigits d : Nat) : ℚ) / ((10 ^ d.v : Nat) : ℚ) := by
    rw [Dec.value_eq_sig, sig_allDigits]; push_cast; rfl
  rw [h]
  exact ieee_ofRat b64 (.inl rfl) _ _ (by positivity)

/-- The float of a decimal, as the model computes it. -/
theorem ieee_value_iff (d : Dec) (x : Flt) : Ieee b64 d.value x ↔ x = Flt.ofRat b64 false (allDigits d) (10 ^ d.v) :=
  ⟨fun h => ieee_unique b64 (by decide) _ _ _ h (ieee_value d), by rintro rfl; exact ieee_value d⟩

theorem _root_.Verif.Spec.OperandsOf.n_eq {po : PluralOperands} {d : Dec} (h : OperandsOf po d) :
    po.n = Flt.ofRat b64 false (allDigits d) (10 ^ d.v) := (ieee_value_iff d po.n).1 h.n

end Verif.Sem
