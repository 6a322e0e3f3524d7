import Verif.PrimesTwist448
import Mathlib.FieldTheory.Finite.Basic

/-! # Primality certificate of the order of the base points of Ed448 and Curve448

The factors of ℓ - 1 that are used make 198 of its 446 bits, so Pocklington's criterion is not
enough alone; two further numbers settle that there are not two factors. -/

namespace Verif.Primes

theorem prime_n227393 :
    Nat.Prime 227393 :=
  pratt 227393 3
    [2, 2, 2, 2, 2, 2, 11, 17, 19]
    (by decide +kernel)
    (forall_mem_of_dedup [2, 11, 17, 19]
      (by decide +kernel)
      ⟨(by norm_num), (by norm_num), (by norm_num), (by norm_num), trivial⟩)

theorem prime_n3009341 :
    Nat.Prime 3009341 :=
  pratt 3009341 2
    [2, 2, 5, 17, 53, 167]
    (by decide +kernel)
    (forall_mem_of_dedup [2, 5, 17, 53, 167]
      (by decide +kernel)
      ⟨(by norm_num), (by norm_num), (by norm_num), (by norm_num), (by norm_num), trivial⟩)

theorem prime_n6577 :
    Nat.Prime 6577 :=
  pratt 6577 5
    [2, 2, 2, 2, 3, 137]
    (by decide +kernel)
    (forall_mem_of_dedup [2, 3, 137]
      (by decide +kernel)
      ⟨(by norm_num), (by norm_num), (by norm_num), trivial⟩)

theorem prime_n16657 :
    Nat.Prime 16657 :=
  pratt 16657 5
    [2, 2, 2, 2, 3, 347]
    (by decide +kernel)
    (forall_mem_of_dedup [2, 3, 347]
      (by decide +kernel)
      ⟨(by norm_num), (by norm_num), (by norm_num), trivial⟩)

theorem prime_n766223 :
    Nat.Prime 766223 :=
  pratt 766223 5
    [2, 23, 16657]
    (by decide +kernel)
    (forall_mem_of_dedup [2, 23, 16657]
      (by decide +kernel)
      ⟨(by norm_num), (by norm_num), prime_n16657, trivial⟩)

theorem prime_n342682509629 :
    Nat.Prime 342682509629 :=
  pratt 342682509629 2
    [2, 2, 17, 6577, 766223]
    (by decide +kernel)
    (forall_mem_of_dedup [2, 17, 6577, 766223]
      (by decide +kernel)
      ⟨(by norm_num), (by norm_num), prime_n6577, prime_n766223, trivial⟩)

theorem prime_n51473 :
    Nat.Prime 51473 :=
  pratt 51473 3
    [2, 2, 2, 2, 3217]
    (by decide +kernel)
    (forall_mem_of_dedup [2, 3217]
      (by decide +kernel)
      ⟨(by norm_num), (by norm_num), trivial⟩)

theorem prime_n8464734851 :
    Nat.Prime 8464734851 :=
  pratt 8464734851 2
    [2, 5, 5, 11, 13, 23, 51473]
    (by decide +kernel)
    (forall_mem_of_dedup [2, 5, 11, 13, 23, 51473]
      (by decide +kernel)
      ⟨(by norm_num), (by norm_num), (by norm_num), (by norm_num), (by norm_num), prime_n51473, trivial⟩)

theorem prime_n74551 :
    Nat.Prime 74551 :=
  pratt 74551 11
    [2, 3, 5, 5, 7, 71]
    (by decide +kernel)
    (forall_mem_of_dedup [2, 3, 5, 7, 71]
      (by decide +kernel)
      ⟨(by norm_num), (by norm_num), (by norm_num), (by norm_num), (by norm_num), trivial⟩)

theorem prime_n894613 :
    Nat.Prime 894613 :=
  pratt 894613 6
    [2, 2, 3, 74551]
    (by decide +kernel)
    (forall_mem_of_dedup [2, 3, 74551]
      (by decide +kernel)
      ⟨(by norm_num), (by norm_num), prime_n74551, trivial⟩)

theorem prime_n3578453 :
    Nat.Prime 3578453 :=
  pratt 3578453 2
    [2, 2, 894613]
    (by decide +kernel)
    (forall_mem_of_dedup [2, 894613]
      (by decide +kernel)
      ⟨(by norm_num), prime_n894613, trivial⟩)

theorem prime_n7156907 :
    Nat.Prime 7156907 :=
  pratt 7156907 2
    [2, 3578453]
    (by decide +kernel)
    (forall_mem_of_dedup [2, 3578453]
      (by decide +kernel)
      ⟨(by norm_num), prime_n3578453, trivial⟩)

theorem prime_n41389 :
    Nat.Prime 41389 :=
  pratt 41389 6
    [2, 2, 3, 3449]
    (by decide +kernel)
    (forall_mem_of_dedup [2, 3, 3449]
      (by decide +kernel)
      ⟨(by norm_num), (by norm_num), (by norm_num), trivial⟩)

theorem prime_n671065561 :
    Nat.Prime 671065561 :=
  pratt 671065561 7
    [2, 2, 2, 3, 3, 3, 3, 5, 11, 19, 991]
    (by decide +kernel)
    (forall_mem_of_dedup [2, 3, 5, 11, 19, 991]
      (by decide +kernel)
      ⟨(by norm_num), (by norm_num), (by norm_num), (by norm_num), (by norm_num), (by norm_num), trivial⟩)

theorem prime_n6730519843040614479184435237013 :
    Nat.Prime 6730519843040614479184435237013 :=
  pratt 6730519843040614479184435237013 2
    [2, 2, 41389, 7156907, 671065561, 8464734851]
    (by decide +kernel)
    (forall_mem_of_dedup [2, 41389, 7156907, 671065561, 8464734851]
      (by decide +kernel)
      ⟨(by norm_num), prime_n41389, prime_n7156907, prime_n671065561, prime_n8464734851, trivial⟩)

/-- The check of a certificate: `a` has an order divisible by the product `F` of `fs`, modulo every
prime factor of `n`, and the quotient of `n - 1` by `F` excludes two such factors. -/
def pockCheck (n a : ℕ) (fs : List ℕ) : Bool :=
  let F := fs.prod
  let R := (n - 1) / F
  decide (1 < n) && decide (n < 2 ^ 450) && decide (1 < F) && decide (F * R = n - 1) &&
    decide (n < F ^ 3) && decide (R / F + 1 < R % F) &&
    decide (powMod n 450 (a % n) (n - 1) 1 = 1) &&
    fs.all fun q => decide (Nat.gcd (powMod n 450 (a % n) ((n - 1) / q) 1 + n - 1) n = 1)

/-- Pocklington: every prime factor is 1 modulo `F`. -/
theorem dvd_of_pock {n a : ℕ} {fs : List ℕ} (hn : n < 2 ^ 450) (h1 : 1 < n)
    (hF : fs.prod ∣ n - 1) (hpow : powMod n 450 (a % n) (n - 1) 1 = 1)
    (hg : ∀ q ∈ fs, Nat.gcd (powMod n 450 (a % n) ((n - 1) / q) 1 + n - 1) n = 1)
    (hfs : ∀ q ∈ fs, q.Prime) {p : ℕ} (hp : p.Prime) (hpn : p ∣ n) : fs.prod ∣ p - 1 := by
  have := Fact.mk hp
  have cast : ∀ e, e < 2 ^ 450 →
      ((powMod n 450 (a % n) e 1 : ℕ) : ZMod p) = (a : ZMod p) ^ e := by
    intro e he
    have h := powMod_spec n 450 (a % n) e 1 he
    have h' := congrArg (ZMod.castHom hpn (ZMod p)) h
    rw [map_natCast, Nat.cast_one, one_mul, map_pow, map_natCast] at h'
    rw [h', (ZMod.natCast_eq_natCast_iff _ _ _).2 ((Nat.mod_modEq a n).of_dvd hpn)]
  have ho : orderOf (a : ZMod p) ∣ n - 1 := by
    apply orderOf_dvd_of_pow_eq_one
    rw [← cast _ (by omega), hpow, Nat.cast_one]
  have hne : (a : ZMod p) ≠ 0 := by
    intro h0
    have := cast (n - 1) (by omega)
    rw [hpow, h0, zero_pow (by omega), Nat.cast_one] at this
    exact one_ne_zero this
  have hop : orderOf (a : ZMod p) ∣ p - 1 :=
    orderOf_dvd_of_pow_eq_one (ZMod.pow_card_sub_one_eq_one hne)
  obtain ⟨k, hk⟩ := ho
  refine dvd_trans ?_ hop
  rw [hk] at hF
  refine Nat.Coprime.dvd_of_dvd_mul_right ?_ hF
  rw [Nat.coprime_iff_gcd_eq_one]
  by_contra hc
  obtain ⟨q, hq, hqd⟩ := Nat.exists_prime_and_dvd hc
  have hqF := dvd_trans hqd (Nat.gcd_dvd_left _ _)
  obtain ⟨j, rfl⟩ := dvd_trans hqd (Nat.gcd_dvd_right _ _)
  obtain ⟨r, hr, hqr⟩ := (Nat.Prime.prime hq).dvd_prod_iff.mp hqF
  have : q = r := (Nat.prime_dvd_prime_iff_eq hq (hfs r hr)).mp hqr
  subst this
  have hdiv : (n - 1) / q = orderOf (a : ZMod p) * j := by
    rw [hk, show orderOf (a : ZMod p) * (q * j) = q * (orderOf (a : ZMod p) * j) by ring,
      Nat.mul_div_cancel_left _ hq.pos]
  have hx := cast ((n - 1) / q) (lt_of_le_of_lt (Nat.div_le_self _ _) (by omega))
  rw [hdiv, pow_mul, pow_orderOf_eq_one, one_pow, ← hdiv] at hx
  have hd : p ∣ powMod n 450 (a % n) ((n - 1) / q) 1 + n - 1 := by
    rw [← ZMod.natCast_eq_zero_iff, Nat.cast_sub (by omega), Nat.cast_add, hx,
      (ZMod.natCast_eq_zero_iff n p).2 hpn]
    simp
  have := Nat.dvd_gcd hd hpn
  rw [hg q hr, Nat.dvd_one] at this
  exact hp.one_lt.ne' this

/-- Numbers that are 1 modulo `F` have products that are. -/
theorem one_mod_of_primes {F : ℕ} : ∀ n : ℕ, 0 < n → (∀ p : ℕ, p.Prime → p ∣ n → F ∣ p - 1) →
    F ∣ n - 1 := by
  intro n
  induction n using Nat.recOnMul with
  | zero => intro h; omega
  | one => intro _ _; simp
  | prime p hp => intro _ h; exact h p hp dvd_rfl
  | mul a b ha hb =>
    intro h0 h
    have a0 : 0 < a := Nat.pos_of_mul_pos_right h0
    have b0 : 0 < b := Nat.pos_of_mul_pos_left h0
    obtain ⟨x, hx⟩ := ha a0 (fun p hp hd => h p hp (dvd_mul_of_dvd_left hd b))
    obtain ⟨y, hy⟩ := hb b0 (fun p hp hd => h p hp (dvd_mul_of_dvd_right hd a))
    have ea : a = F * x + 1 := by omega
    have eb : b = F * y + 1 := by omega
    refine ⟨F * x * y + x + y, ?_⟩
    rw [ea, eb, Nat.sub_eq_iff_eq_add (by nlinarith)]
    ring

theorem pock (n a : ℕ) (fs : List ℕ) (hc : pockCheck n a fs = true)
    (hfs : ∀ q ∈ fs, q.Prime) : n.Prime := by
  simp only [pockCheck, Bool.and_eq_true, decide_eq_true_eq, List.all_eq_true] at hc
  obtain ⟨⟨⟨⟨⟨⟨⟨h1, h450⟩, hF1⟩, hFR⟩, h3⟩, hR⟩, hpow⟩, hg⟩ := hc
  have hp : ∀ p : ℕ, p.Prime → p ∣ n → fs.prod ∣ p - 1 := fun p hp hd =>
    dvd_of_pock h450 h1 (Dvd.intro _ hFR) hpow hg hfs hp hd
  generalize fs.prod = F at *
  generalize hRd : (n - 1) / F = R at *
  by_contra hn
  obtain ⟨x, y, hx, hy, hxy⟩ : ∃ x y, 1 < x ∧ 1 < y ∧ n = x * y := by
    obtain ⟨x, hx, hx1, hxn⟩ := Nat.exists_dvd_of_not_prime2 h1 hn
    obtain ⟨y, hy⟩ := hx
    refine ⟨x, y, by omega, ?_, hy⟩
    rcases y with _ | _ | y
    · omega
    · omega
    · omega
  obtain ⟨s, hs⟩ := one_mod_of_primes (F := F) x (by omega)
    (fun p k hd => hp p k (by rw [hxy]; exact dvd_mul_of_dvd_left hd y))
  obtain ⟨t, ht⟩ := one_mod_of_primes (F := F) y (by omega)
    (fun p k hd => hp p k (by rw [hxy]; exact dvd_mul_of_dvd_right hd x))
  have ex : x = F * s + 1 := by omega
  have ey : y = F * t + 1 := by omega
  have s0 : 0 < s := by
    rcases Nat.eq_zero_or_pos s with h | h
    · rw [h] at ex; omega
    · exact h
  have t0 : 0 < t := by
    rcases Nat.eq_zero_or_pos t with h | h
    · rw [h] at ey; omega
    · exact h
  have hnn : n = F * (F * (s * t) + (s + t)) + 1 := by rw [hxy, ex, ey]; ring
  have hRe : R = F * (s * t) + (s + t) := by
    have : F * R = F * (F * (s * t) + (s + t)) := by omega
    exact Nat.eq_of_mul_eq_mul_left (by omega) this
  have hst : s + t ≤ s * t + 1 := by nlinarith
  have hlt : s * t < F := by
    by_contra hge
    have : F * (F * F) ≤ F * (F * (s * t)) :=
      Nat.mul_le_mul_left _ (Nat.mul_le_mul_left _ (not_lt.1 hge))
    have e3 : F ^ 3 = F * (F * F) := by ring
    have : F * (F * (s * t)) ≤ F * (F * (s * t) + (s + t)) := Nat.mul_le_mul_left _ (by omega)
    omega
  have hmod : R % F ≤ s + t := by
    rw [hRe, Nat.mul_add_mod]; exact Nat.mod_le _ _
  have hdiv : s * t ≤ R / F := by
    rw [hRe, Nat.le_div_iff_mul_le (by omega)]
    nlinarith
  omega

theorem prime_l448 :
    Nat.Prime 181709681073901722637330951972001133588410340171829515070372549795146003961539585716195755291692375963310293709091662304773755859649779 :=
  pock 181709681073901722637330951972001133588410340171829515070372549795146003961539585716195755291692375963310293709091662304773755859649779 2
    [2, 3, 19, 19, 97, 227393, 3009341, 342682509629, 6730519843040614479184435237013]
    (by decide +kernel)
    (forall_mem_of_dedup [2, 3, 19, 97, 227393, 3009341, 342682509629, 6730519843040614479184435237013]
      (by decide +kernel)
      ⟨(by norm_num), (by norm_num), (by norm_num), (by norm_num), prime_n227393, prime_n3009341,
        prime_n342682509629, prime_n6730519843040614479184435237013, trivial⟩)

end Verif.Primes
