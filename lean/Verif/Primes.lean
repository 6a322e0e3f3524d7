import Mathlib.NumberTheory.LucasPrimality
import Mathlib.Tactic.NormNum.Prime
import Mathlib.Tactic.NormNum.Pow
import Mathlib.Algebra.BigOperators.Associated

/-! # Primality certificates (Pratt)

The two field primes and the group orders, with their Pratt certificates.  The modular
powers are evaluated by the kernel with `powMod`. Generated by a script. -/

namespace Verif.Primes

/-- Square-and-multiply `acc * a ^ e mod m`, for exponents below `2 ^ fuel`. -/
def powMod (m : ℕ) : ℕ → ℕ → ℕ → ℕ → ℕ
  | 0, _, _, acc => acc
  | fuel + 1, a, e, acc =>
    powMod m fuel (a * a % m) (e / 2) (if e % 2 = 1 then acc * a % m else acc)

theorem powMod_spec (m fuel : ℕ) : ∀ a e acc : ℕ, e < 2 ^ fuel →
    ((powMod m fuel a e acc : ℕ) : ZMod m) = acc * (a : ZMod m) ^ e := by
  induction fuel with
  | zero => intro a e acc h; simp at h; subst h; simp [powMod]
  | succ n ih =>
    intro a e acc h
    rw [powMod, ih _ _ _ (by rw [pow_succ] at h; omega)]
    have he := Nat.div_add_mod e 2
    have ha : (((a * a % m : ℕ)) : ZMod m) = (a : ZMod m) ^ 2 := by
      rw [ZMod.natCast_mod]; push_cast; ring
    rw [ha, ← pow_mul]
    rcases Nat.mod_two_eq_zero_or_one e with h0 | h0
    · rw [h0] at he
      have : e = 2 * (e / 2) := by omega
      rw [if_neg (by omega)]
      conv_rhs => rw [this]
    · have : e = 2 * (e / 2) + 1 := by omega
      rw [if_pos h0, ZMod.natCast_mod]
      push_cast
      conv_rhs => rw [this]
      rw [pow_succ]; ring

/-- The check of a Pratt certificate: `a` is a generator given the factors `fs` of `p - 1`. -/
def prattCheck (p a : ℕ) (fs : List ℕ) : Bool :=
  decide (1 < p) && decide (p < 2 ^ 450) && decide (fs.prod = p - 1) &&
    decide (powMod p 450 (a % p) (p - 1) 1 = 1) &&
    fs.all fun q => decide (powMod p 450 (a % p) ((p - 1) / q) 1 % p ≠ 1)

theorem pratt (p a : ℕ) (fs : List ℕ) (hc : prattCheck p a fs = true)
    (hfs : ∀ q ∈ fs, q.Prime) : p.Prime := by
  simp only [prattCheck, Bool.and_eq_true, decide_eq_true_eq, List.all_eq_true] at hc
  obtain ⟨⟨⟨⟨h1, h450⟩, hprod⟩, hpow⟩, hne⟩ := hc
  have hlt : ∀ q, (p - 1) / q < 2 ^ 450 := fun q =>
    lt_of_le_of_lt (Nat.div_le_self _ _) (by omega)
  refine lucas_primality p (a : ZMod p) ?_ ?_
  · have := powMod_spec p 450 (a % p) (p - 1) 1 (by omega)
    rw [hpow, ZMod.natCast_mod] at this
    simpa using this.symm
  · intro q hq hd heq
    rw [← hprod] at hd
    obtain ⟨r, hr, hqr⟩ := (Nat.Prime.prime hq).dvd_prod_iff.mp hd
    have : q = r := (Nat.prime_dvd_prime_iff_eq hq (hfs r hr)).mp hqr
    subst this
    have h := powMod_spec p 450 (a % p) ((p - 1) / q) 1 (hlt q)
    rw [ZMod.natCast_mod, heq] at h
    apply hne q hr
    have h' : ((powMod p 450 (a % p) ((p - 1) / q) 1 : ℕ) : ZMod p) = ((1 : ℕ) : ZMod p) := by
      simpa using h
    rw [ZMod.natCast_eq_natCast_iff'] at h'
    rw [h', Nat.mod_eq_of_lt h1]

/-- All members of a list of numbers are prime, as a conjunction. -/
def AllPrime : List ℕ → Prop
  | [] => True
  | q :: t => q.Prime ∧ AllPrime t

theorem AllPrime.mem : ∀ {l : List ℕ}, AllPrime l → ∀ q ∈ l, q.Prime
  | [], _, q, h => by simp at h
  | a :: t, ⟨h1, h2⟩, q, h => by
    rcases List.mem_cons.mp h with h | h
    · exact h ▸ h1
    · exact h2.mem q h

theorem forall_mem_of_dedup {fs : List ℕ} (d : List ℕ)
    (h : (fs.all fun q => d.contains q) = true) (hd : AllPrime d) : ∀ q ∈ fs, q.Prime := by
  intro q hq
  have := List.all_eq_true.mp h q hq
  exact hd.mem q (by simpa using this)

theorem prime_n569003 : Nat.Prime 569003 :=
  pratt 569003 2 [2, 7, 97, 419] (by decide +kernel)
    (forall_mem_of_dedup [2, 7, 97, 419] (by decide +kernel)
      ⟨(by norm_num), (by norm_num), (by norm_num), (by norm_num), trivial⟩)

theorem prime_n2773320623 : Nat.Prime 2773320623 :=
  pratt 2773320623 5 [2, 2437, 569003] (by decide +kernel)
    (forall_mem_of_dedup [2, 2437, 569003] (by decide +kernel)
      ⟨(by norm_num), (by norm_num), prime_n569003, trivial⟩)

theorem prime_n72106336199 : Nat.Prime 72106336199 :=
  pratt 72106336199 7 [2, 13, 2773320623] (by decide +kernel)
    (forall_mem_of_dedup [2, 13, 2773320623] (by decide +kernel)
      ⟨(by norm_num), (by norm_num), prime_n2773320623, trivial⟩)

theorem prime_n8574133 : Nat.Prime 8574133 :=
  pratt 8574133 2 [2, 2, 3, 7, 103, 991] (by decide +kernel)
    (forall_mem_of_dedup [2, 3, 7, 103, 991] (by decide +kernel)
      ⟨(by norm_num), (by norm_num), (by norm_num), (by norm_num), (by norm_num), trivial⟩)

theorem prime_n1919519569386763 : Nat.Prime 1919519569386763 :=
  pratt 1919519569386763 2 [2, 3, 7, 19, 47, 47, 127, 8574133] (by decide +kernel)
    (forall_mem_of_dedup [2, 3, 7, 19, 47, 127, 8574133] (by decide +kernel)
      ⟨(by norm_num), (by norm_num), (by norm_num), (by norm_num), (by norm_num), (by norm_num), prime_n8574133, trivial⟩)

theorem prime_n9463 : Nat.Prime 9463 :=
  pratt 9463 3 [2, 3, 19, 83] (by decide +kernel)
    (forall_mem_of_dedup [2, 3, 19, 83] (by decide +kernel)
      ⟨(by norm_num), (by norm_num), (by norm_num), (by norm_num), trivial⟩)

theorem prime_n37853 : Nat.Prime 37853 :=
  pratt 37853 2 [2, 2, 9463] (by decide +kernel)
    (forall_mem_of_dedup [2, 9463] (by decide +kernel)
      ⟨(by norm_num), prime_n9463, trivial⟩)

theorem prime_n75707 : Nat.Prime 75707 :=
  pratt 75707 2 [2, 37853] (by decide +kernel)
    (forall_mem_of_dedup [2, 37853] (by decide +kernel)
      ⟨(by norm_num), prime_n37853, trivial⟩)

theorem prime_n75445702479781427272750846543864801 : Nat.Prime 75445702479781427272750846543864801 :=
  pratt 75445702479781427272750846543864801 7 [2, 2, 2, 2, 2, 3, 3, 5, 5, 75707, 72106336199, 1919519569386763] (by decide +kernel)
    (forall_mem_of_dedup [2, 3, 5, 75707, 72106336199, 1919519569386763] (by decide +kernel)
      ⟨(by norm_num), (by norm_num), (by norm_num), prime_n75707, prime_n72106336199, prime_n1919519569386763, trivial⟩)

theorem prime_n132049 : Nat.Prime 132049 :=
  pratt 132049 26 [2, 2, 2, 2, 3, 3, 7, 131] (by decide +kernel)
    (forall_mem_of_dedup [2, 3, 7, 131] (by decide +kernel)
      ⟨(by norm_num), (by norm_num), (by norm_num), (by norm_num), trivial⟩)

theorem prime_n430751 : Nat.Prime 430751 :=
  pratt 430751 17 [2, 5, 5, 5, 1723] (by decide +kernel)
    (forall_mem_of_dedup [2, 5, 1723] (by decide +kernel)
      ⟨(by norm_num), (by norm_num), (by norm_num), trivial⟩)

theorem prime_n31757755568855353 : Nat.Prime 31757755568855353 :=
  pratt 31757755568855353 10 [2, 2, 2, 3, 31, 107, 223, 4153, 430751] (by decide +kernel)
    (forall_mem_of_dedup [2, 3, 31, 107, 223, 4153, 430751] (by decide +kernel)
      ⟨(by norm_num), (by norm_num), (by norm_num), (by norm_num), (by norm_num), (by norm_num), prime_n430751, trivial⟩)

theorem prime_n57467 : Nat.Prime 57467 :=
  pratt 57467 2 [2, 59, 487] (by decide +kernel)
    (forall_mem_of_dedup [2, 59, 487] (by decide +kernel)
      ⟨(by norm_num), (by norm_num), (by norm_num), trivial⟩)

theorem prime_n1923133 : Nat.Prime 1923133 :=
  pratt 1923133 2 [2, 2, 3, 43, 3727] (by decide +kernel)
    (forall_mem_of_dedup [2, 3, 43, 3727] (by decide +kernel)
      ⟨(by norm_num), (by norm_num), (by norm_num), (by norm_num), trivial⟩)

theorem prime_n74058212732561358302231226437062788676166966415465897661863160754340907 : Nat.Prime 74058212732561358302231226437062788676166966415465897661863160754340907 :=
  pratt 74058212732561358302231226437062788676166966415465897661863160754340907 2 [2, 3, 353, 57467, 132049, 1923133, 31757755568855353, 75445702479781427272750846543864801] (by decide +kernel)
    (forall_mem_of_dedup [2, 3, 353, 57467, 132049, 1923133, 31757755568855353, 75445702479781427272750846543864801] (by decide +kernel)
      ⟨(by norm_num), (by norm_num), (by norm_num), prime_n57467, prime_n132049, prime_n1923133, prime_n31757755568855353, prime_n75445702479781427272750846543864801, trivial⟩)

theorem prime_n32573 : Nat.Prime 32573 :=
  pratt 32573 2 [2, 2, 17, 479] (by decide +kernel)
    (forall_mem_of_dedup [2, 17, 479] (by decide +kernel)
      ⟨(by norm_num), (by norm_num), (by norm_num), trivial⟩)

theorem prime_n65147 : Nat.Prime 65147 :=
  pratt 65147 2 [2, 32573] (by decide +kernel)
    (forall_mem_of_dedup [2, 32573] (by decide +kernel)
      ⟨(by norm_num), prime_n32573, trivial⟩)

theorem prime_p25519 : Nat.Prime 57896044618658097711785492504343953926634992332820282019728792003956564819949 :=
  pratt 57896044618658097711785492504343953926634992332820282019728792003956564819949 2 [2, 2, 3, 65147, 74058212732561358302231226437062788676166966415465897661863160754340907] (by decide +kernel)
    (forall_mem_of_dedup [2, 3, 65147, 74058212732561358302231226437062788676166966415465897661863160754340907] (by decide +kernel)
      ⟨(by norm_num), (by norm_num), prime_n65147, prime_n74058212732561358302231226437062788676166966415465897661863160754340907, trivial⟩)

theorem prime_n1224481 : Nat.Prime 1224481 :=
  pratt 1224481 13 [2, 2, 2, 2, 2, 3, 5, 2551] (by decide +kernel)
    (forall_mem_of_dedup [2, 3, 5, 2551] (by decide +kernel)
      ⟨(by norm_num), (by norm_num), (by norm_num), (by norm_num), trivial⟩)

theorem prime_n531581 : Nat.Prime 531581 :=
  pratt 531581 2 [2, 2, 5, 7, 3797] (by decide +kernel)
    (forall_mem_of_dedup [2, 5, 7, 3797] (by decide +kernel)
      ⟨(by norm_num), (by norm_num), (by norm_num), (by norm_num), trivial⟩)

theorem prime_n1257559732178653 : Nat.Prime 1257559732178653 :=
  pratt 1257559732178653 2 [2, 2, 3, 7, 23, 531581, 1224481] (by decide +kernel)
    (forall_mem_of_dedup [2, 3, 7, 23, 531581, 1224481] (by decide +kernel)
      ⟨(by norm_num), (by norm_num), (by norm_num), (by norm_num), prime_n531581, prime_n1224481, trivial⟩)

theorem prime_n4434155615661930479 : Nat.Prime 4434155615661930479 :=
  pratt 4434155615661930479 17 [2, 41, 43, 1257559732178653] (by decide +kernel)
    (forall_mem_of_dedup [2, 41, 43, 1257559732178653] (by decide +kernel)
      ⟨(by norm_num), (by norm_num), (by norm_num), prime_n1257559732178653, trivial⟩)

theorem prime_n172054593956031949258510691 : Nat.Prime 172054593956031949258510691 :=
  pratt 172054593956031949258510691 2 [2, 5, 1361, 2851, 4434155615661930479] (by decide +kernel)
    (forall_mem_of_dedup [2, 5, 1361, 2851, 4434155615661930479] (by decide +kernel)
      ⟨(by norm_num), (by norm_num), (by norm_num), (by norm_num), prime_n4434155615661930479, trivial⟩)

theorem prime_n5879 : Nat.Prime 5879 :=
  pratt 5879 11 [2, 2939] (by decide +kernel)
    (forall_mem_of_dedup [2, 2939] (by decide +kernel)
      ⟨(by norm_num), (by norm_num), trivial⟩)

theorem prime_n292386187 : Nat.Prime 292386187 :=
  pratt 292386187 2 [2, 3, 3, 3, 3, 307, 5879] (by decide +kernel)
    (forall_mem_of_dedup [2, 3, 307, 5879] (by decide +kernel)
      ⟨(by norm_num), (by norm_num), (by norm_num), prime_n5879, trivial⟩)

theorem prime_n213441916511 : Nat.Prime 213441916511 :=
  pratt 213441916511 13 [2, 5, 73, 292386187] (by decide +kernel)
    (forall_mem_of_dedup [2, 5, 73, 292386187] (by decide +kernel)
      ⟨(by norm_num), (by norm_num), (by norm_num), prime_n292386187, trivial⟩)

theorem prime_n19757330305831588566944191468367130476339 : Nat.Prime 19757330305831588566944191468367130476339 :=
  pratt 19757330305831588566944191468367130476339 2 [2, 269, 213441916511, 172054593956031949258510691] (by decide +kernel)
    (forall_mem_of_dedup [2, 269, 213441916511, 172054593956031949258510691] (by decide +kernel)
      ⟨(by norm_num), (by norm_num), prime_n213441916511, prime_n172054593956031949258510691, trivial⟩)

theorem prime_n276602624281642239937218680557139826668747 : Nat.Prime 276602624281642239937218680557139826668747 :=
  pratt 276602624281642239937218680557139826668747 2 [2, 7, 19757330305831588566944191468367130476339] (by decide +kernel)
    (forall_mem_of_dedup [2, 7, 19757330305831588566944191468367130476339] (by decide +kernel)
      ⟨(by norm_num), (by norm_num), prime_n19757330305831588566944191468367130476339, trivial⟩)

theorem prime_n34123 : Nat.Prime 34123 :=
  pratt 34123 2 [2, 3, 11, 11, 47] (by decide +kernel)
    (forall_mem_of_dedup [2, 3, 11, 47] (by decide +kernel)
      ⟨(by norm_num), (by norm_num), (by norm_num), (by norm_num), trivial⟩)

theorem prime_n409477 : Nat.Prime 409477 :=
  pratt 409477 2 [2, 2, 3, 34123] (by decide +kernel)
    (forall_mem_of_dedup [2, 3, 34123] (by decide +kernel)
      ⟨(by norm_num), (by norm_num), prime_n34123, trivial⟩)

theorem prime_n14741173 : Nat.Prime 14741173 :=
  pratt 14741173 2 [2, 2, 3, 3, 409477] (by decide +kernel)
    (forall_mem_of_dedup [2, 3, 409477] (by decide +kernel)
      ⟨(by norm_num), (by norm_num), prime_n409477, trivial⟩)

theorem prime_n58964693 : Nat.Prime 58964693 :=
  pratt 58964693 2 [2, 2, 14741173] (by decide +kernel)
    (forall_mem_of_dedup [2, 14741173] (by decide +kernel)
      ⟨(by norm_num), prime_n14741173, trivial⟩)

theorem prime_n30703 : Nat.Prime 30703 :=
  pratt 30703 3 [2, 3, 7, 17, 43] (by decide +kernel)
    (forall_mem_of_dedup [2, 3, 7, 17, 43] (by decide +kernel)
      ⟨(by norm_num), (by norm_num), (by norm_num), (by norm_num), (by norm_num), trivial⟩)

theorem prime_n41081 : Nat.Prime 41081 :=
  pratt 41081 3 [2, 2, 2, 5, 13, 79] (by decide +kernel)
    (forall_mem_of_dedup [2, 5, 13, 79] (by decide +kernel)
      ⟨(by norm_num), (by norm_num), (by norm_num), (by norm_num), trivial⟩)

theorem prime_n82163 : Nat.Prime 82163 :=
  pratt 82163 2 [2, 41081] (by decide +kernel)
    (forall_mem_of_dedup [2, 41081] (by decide +kernel)
      ⟨(by norm_num), prime_n41081, trivial⟩)

theorem prime_n17231 : Nat.Prime 17231 :=
  pratt 17231 13 [2, 5, 1723] (by decide +kernel)
    (forall_mem_of_dedup [2, 5, 1723] (by decide +kernel)
      ⟨(by norm_num), (by norm_num), (by norm_num), trivial⟩)

theorem prime_n137849 : Nat.Prime 137849 :=
  pratt 137849 3 [2, 2, 2, 17231] (by decide +kernel)
    (forall_mem_of_dedup [2, 17231] (by decide +kernel)
      ⟨(by norm_num), prime_n17231, trivial⟩)

theorem prime_n22111 : Nat.Prime 22111 :=
  pratt 22111 6 [2, 3, 5, 11, 67] (by decide +kernel)
    (forall_mem_of_dedup [2, 3, 5, 11, 67] (by decide +kernel)
      ⟨(by norm_num), (by norm_num), (by norm_num), (by norm_num), (by norm_num), trivial⟩)

theorem prime_n132667 : Nat.Prime 132667 :=
  pratt 132667 5 [2, 3, 22111] (by decide +kernel)
    (forall_mem_of_dedup [2, 3, 22111] (by decide +kernel)
      ⟨(by norm_num), (by norm_num), prime_n22111, trivial⟩)

theorem prime_n3044861653679985063343 : Nat.Prime 3044861653679985063343 :=
  pratt 3044861653679985063343 5 [2, 3, 11, 30703, 82163, 132667, 137849] (by decide +kernel)
    (forall_mem_of_dedup [2, 3, 11, 30703, 82163, 132667, 137849] (by decide +kernel)
      ⟨(by norm_num), (by norm_num), (by norm_num), prime_n30703, prime_n82163, prime_n132667, prime_n137849, trivial⟩)

theorem prime_n198211423230930754013084525763697 : Nat.Prime 198211423230930754013084525763697 :=
  pratt 198211423230930754013084525763697 5 [2, 2, 2, 2, 3, 23, 58964693, 3044861653679985063343] (by decide +kernel)
    (forall_mem_of_dedup [2, 3, 23, 58964693, 3044861653679985063343] (by decide +kernel)
      ⟨(by norm_num), (by norm_num), (by norm_num), prime_n58964693, prime_n3044861653679985063343, trivial⟩)

theorem prime_l25519 : Nat.Prime 7237005577332262213973186563042994240857116359379907606001950938285454250989 :=
  pratt 7237005577332262213973186563042994240857116359379907606001950938285454250989 2 [2, 2, 3, 11, 198211423230930754013084525763697, 276602624281642239937218680557139826668747] (by decide +kernel)
    (forall_mem_of_dedup [2, 3, 11, 198211423230930754013084525763697, 276602624281642239937218680557139826668747] (by decide +kernel)
      ⟨(by norm_num), (by norm_num), (by norm_num), prime_n198211423230930754013084525763697, prime_n276602624281642239937218680557139826668747, trivial⟩)

theorem prime_n17449 : Nat.Prime 17449 :=
  pratt 17449 14 [2, 2, 2, 3, 727] (by decide +kernel)
    (forall_mem_of_dedup [2, 3, 727] (by decide +kernel)
      ⟨(by norm_num), (by norm_num), (by norm_num), trivial⟩)

theorem prime_n6700417 : Nat.Prime 6700417 :=
  pratt 6700417 5 [2, 2, 2, 2, 2, 2, 2, 3, 17449] (by decide +kernel)
    (forall_mem_of_dedup [2, 3, 17449] (by decide +kernel)
      ⟨(by norm_num), (by norm_num), prime_n17449, trivial⟩)

theorem prime_n36753053 : Nat.Prime 36753053 :=
  pratt 36753053 2 [2, 2, 7, 443, 2963] (by decide +kernel)
    (forall_mem_of_dedup [2, 7, 443, 2963] (by decide +kernel)
      ⟨(by norm_num), (by norm_num), (by norm_num), (by norm_num), trivial⟩)

theorem prime_n6197 : Nat.Prime 6197 :=
  pratt 6197 2 [2, 2, 1549] (by decide +kernel)
    (forall_mem_of_dedup [2, 1549] (by decide +kernel)
      ⟨(by norm_num), (by norm_num), trivial⟩)

theorem prime_n1335912079 : Nat.Prime 1335912079 :=
  pratt 1335912079 6 [2, 3, 19, 31, 61, 6197] (by decide +kernel)
    (forall_mem_of_dedup [2, 3, 19, 31, 61, 6197] (by decide +kernel)
      ⟨(by norm_num), (by norm_num), (by norm_num), (by norm_num), (by norm_num), prime_n6197, trivial⟩)

theorem prime_n32061889897 : Nat.Prime 32061889897 :=
  pratt 32061889897 10 [2, 2, 2, 3, 1335912079] (by decide +kernel)
    (forall_mem_of_dedup [2, 3, 1335912079] (by decide +kernel)
      ⟨(by norm_num), (by norm_num), prime_n1335912079, trivial⟩)

theorem prime_n25136521679249 : Nat.Prime 25136521679249 :=
  pratt 25136521679249 3 [2, 2, 2, 2, 7, 7, 32061889897] (by decide +kernel)
    (forall_mem_of_dedup [2, 7, 32061889897] (by decide +kernel)
      ⟨(by norm_num), (by norm_num), prime_n32061889897, trivial⟩)

theorem prime_n9749 : Nat.Prime 9749 :=
  pratt 9749 2 [2, 2, 2437] (by decide +kernel)
    (forall_mem_of_dedup [2, 2437] (by decide +kernel)
      ⟨(by norm_num), (by norm_num), trivial⟩)

theorem prime_n116989 : Nat.Prime 116989 :=
  pratt 116989 10 [2, 2, 3, 9749] (by decide +kernel)
    (forall_mem_of_dedup [2, 3, 9749] (by decide +kernel)
      ⟨(by norm_num), (by norm_num), prime_n9749, trivial⟩)

theorem prime_n1255525949 : Nat.Prime 1255525949 :=
  pratt 1255525949 2 [2, 2, 2683, 116989] (by decide +kernel)
    (forall_mem_of_dedup [2, 2683, 116989] (by decide +kernel)
      ⟨(by norm_num), (by norm_num), prime_n116989, trivial⟩)

theorem prime_n37414057161322375957408148834323969 : Nat.Prime 37414057161322375957408148834323969 :=
  pratt 37414057161322375957408148834323969 23 [2, 2, 2, 2, 2, 2, 2, 2, 2, 3, 3, 7, 36753053, 1255525949, 25136521679249] (by decide +kernel)
    (forall_mem_of_dedup [2, 3, 7, 36753053, 1255525949, 25136521679249] (by decide +kernel)
      ⟨(by norm_num), (by norm_num), (by norm_num), prime_n36753053, prime_n1255525949, prime_n25136521679249, trivial⟩)

theorem prime_n2916841 : Nat.Prime 2916841 :=
  pratt 2916841 13 [2, 2, 2, 3, 5, 109, 223] (by decide +kernel)
    (forall_mem_of_dedup [2, 3, 5, 109, 223] (by decide +kernel)
      ⟨(by norm_num), (by norm_num), (by norm_num), (by norm_num), (by norm_num), trivial⟩)

theorem prime_n217003 : Nat.Prime 217003 :=
  pratt 217003 3 [2, 3, 59, 613] (by decide +kernel)
    (forall_mem_of_dedup [2, 3, 59, 613] (by decide +kernel)
      ⟨(by norm_num), (by norm_num), (by norm_num), (by norm_num), trivial⟩)

theorem prime_n1764234391 : Nat.Prime 1764234391 :=
  pratt 1764234391 3 [2, 3, 5, 271, 217003] (by decide +kernel)
    (forall_mem_of_dedup [2, 3, 5, 271, 217003] (by decide +kernel)
      ⟨(by norm_num), (by norm_num), (by norm_num), (by norm_num), prime_n217003, trivial⟩)

theorem prime_n34741861125639557 : Nat.Prime 34741861125639557 :=
  pratt 34741861125639557 13 [2, 2, 7, 7, 7, 31, 463, 1764234391] (by decide +kernel)
    (forall_mem_of_dedup [2, 7, 31, 463, 1764234391] (by decide +kernel)
      ⟨(by norm_num), (by norm_num), (by norm_num), (by norm_num), prime_n1764234391, trivial⟩)

theorem prime_n36131535570665139281 : Nat.Prime 36131535570665139281 :=
  pratt 36131535570665139281 3 [2, 2, 2, 2, 5, 13, 34741861125639557] (by decide +kernel)
    (forall_mem_of_dedup [2, 5, 13, 34741861125639557] (by decide +kernel)
      ⟨(by norm_num), (by norm_num), (by norm_num), prime_n34741861125639557, trivial⟩)

theorem prime_n596242599987116128415063 : Nat.Prime 596242599987116128415063 :=
  pratt 596242599987116128415063 5 [2, 37, 223, 36131535570665139281] (by decide +kernel)
    (forall_mem_of_dedup [2, 37, 223, 36131535570665139281] (by decide +kernel)
      ⟨(by norm_num), (by norm_num), (by norm_num), prime_n36131535570665139281, trivial⟩)

theorem prime_n196687 : Nat.Prime 196687 :=
  pratt 196687 3 [2, 3, 3, 7, 7, 223] (by decide +kernel)
    (forall_mem_of_dedup [2, 3, 7, 223] (by decide +kernel)
      ⟨(by norm_num), (by norm_num), (by norm_num), (by norm_num), trivial⟩)

theorem prime_n18287 : Nat.Prime 18287 :=
  pratt 18287 5 [2, 41, 223] (by decide +kernel)
    (forall_mem_of_dedup [2, 41, 223] (by decide +kernel)
      ⟨(by norm_num), (by norm_num), (by norm_num), trivial⟩)

theorem prime_n1466449 : Nat.Prime 1466449 :=
  pratt 1466449 7 [2, 2, 2, 2, 3, 137, 223] (by decide +kernel)
    (forall_mem_of_dedup [2, 3, 137, 223] (by decide +kernel)
      ⟨(by norm_num), (by norm_num), (by norm_num), (by norm_num), trivial⟩)

theorem prime_n47497 : Nat.Prime 47497 :=
  pratt 47497 5 [2, 2, 2, 3, 1979] (by decide +kernel)
    (forall_mem_of_dedup [2, 3, 1979] (by decide +kernel)
      ⟨(by norm_num), (by norm_num), (by norm_num), trivial⟩)

theorem prime_n189989 : Nat.Prime 189989 :=
  pratt 189989 2 [2, 2, 47497] (by decide +kernel)
    (forall_mem_of_dedup [2, 47497] (by decide +kernel)
      ⟨(by norm_num), prime_n47497, trivial⟩)

theorem prime_n379979 : Nat.Prime 379979 :=
  pratt 379979 2 [2, 189989] (by decide +kernel)
    (forall_mem_of_dedup [2, 189989] (by decide +kernel)
      ⟨(by norm_num), prime_n189989, trivial⟩)

theorem prime_n97859369123353 : Nat.Prime 97859369123353 :=
  pratt 97859369123353 5 [2, 2, 2, 3, 3, 67, 197, 271, 379979] (by decide +kernel)
    (forall_mem_of_dedup [2, 3, 67, 197, 271, 379979] (by decide +kernel)
      ⟨(by norm_num), (by norm_num), (by norm_num), (by norm_num), (by norm_num), prime_n379979, trivial⟩)

theorem prime_n167773885276849215533569 : Nat.Prime 167773885276849215533569 :=
  pratt 167773885276849215533569 17 [2, 2, 2, 2, 2, 2, 2, 2, 2, 3, 3, 3, 7, 7, 2531, 97859369123353] (by decide +kernel)
    (forall_mem_of_dedup [2, 3, 7, 2531, 97859369123353] (by decide +kernel)
      ⟨(by norm_num), (by norm_num), (by norm_num), (by norm_num), prime_n97859369123353, trivial⟩)

theorem prime_n1609403 : Nat.Prime 1609403 :=
  pratt 1609403 2 [2, 23, 59, 593] (by decide +kernel)
    (forall_mem_of_dedup [2, 23, 59, 593] (by decide +kernel)
      ⟨(by norm_num), (by norm_num), (by norm_num), (by norm_num), trivial⟩)

theorem prime_n3402277943 : Nat.Prime 3402277943 :=
  pratt 3402277943 5 [2, 7, 151, 1609403] (by decide +kernel)
    (forall_mem_of_dedup [2, 7, 151, 1609403] (by decide +kernel)
      ⟨(by norm_num), (by norm_num), (by norm_num), prime_n1609403, trivial⟩)

theorem prime_n411743 : Nat.Prime 411743 :=
  pratt 411743 10 [2, 29, 31, 229] (by decide +kernel)
    (forall_mem_of_dedup [2, 29, 31, 229] (by decide +kernel)
      ⟨(by norm_num), (by norm_num), (by norm_num), (by norm_num), trivial⟩)

theorem prime_n1469495262398780123809 : Nat.Prime 1469495262398780123809 :=
  pratt 1469495262398780123809 17 [2, 2, 2, 2, 2, 3, 7, 7, 223, 411743, 3402277943] (by decide +kernel)
    (forall_mem_of_dedup [2, 3, 7, 223, 411743, 3402277943] (by decide +kernel)
      ⟨(by norm_num), (by norm_num), (by norm_num), (by norm_num), prime_n411743, prime_n3402277943, trivial⟩)

theorem prime_p448 : Nat.Prime 726838724295606890549323807888004534353641360687318060281490199180612328166730772686396383698676545930088884461843637361053498018365439 :=
  pratt 726838724295606890549323807888004534353641360687318060281490199180612328166730772686396383698676545930088884461843637361053498018365439 7 [2, 641, 18287, 196687, 1466449, 2916841, 6700417, 1469495262398780123809, 167773885276849215533569, 596242599987116128415063, 37414057161322375957408148834323969] (by decide +kernel)
    (forall_mem_of_dedup [2, 641, 18287, 196687, 1466449, 2916841, 6700417, 1469495262398780123809, 167773885276849215533569, 596242599987116128415063, 37414057161322375957408148834323969] (by decide +kernel)
      ⟨(by norm_num), (by norm_num), prime_n18287, prime_n196687, prime_n1466449, prime_n2916841, prime_n6700417, prime_n1469495262398780123809, prime_n167773885276849215533569, prime_n596242599987116128415063, prime_n37414057161322375957408148834323969, trivial⟩)


end Verif.Primes
