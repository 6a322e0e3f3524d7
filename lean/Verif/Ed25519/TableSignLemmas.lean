import Verif.Ed25519.Mult
import Verif.Ed25519.Curve
import Verif.Fp25519.RedSer

/-! # The signing table holds multiples of the base point: helper lemmas -/

namespace Verif.Ed25519

open Verif.Fp25519

/-- The number in four words. -/
def F4.num (a : F4) : ℕ :=
  a.w0.toNat + 2 ^ 64 * a.w1.toNat + 2 ^ 128 * a.w2.toNat + 2 ^ 192 * a.w3.toNat

theorem F4.num_val (a : F4) : (F4.num a : ℤ) = a.val := by
  simp only [F4.num, F4.val, iv]; push_cast; ring

/-- Three numbers are y + x, y - x and 2dxy of the point. -/
def isPre (n : NPt) (a s t : ℕ) : Bool :=
  decide (NPt.sub a s * n.Z % P = 2 * n.X % P) && decide ((a + s) * n.Z % P = 2 * n.Y % P) &&
  decide (t * n.Z % P = 2 * dN * n.T % P)

theorem isPre_spec {n : NPt} {A : Pt} (hn : n.Is A) {a s t : ℕ} (h : isPre n a s t = true) :
    Edw.Pre A (a : Fp) (s : Fp) (t : Fp) 2 := by
  simp only [isPre, Bool.and_eq_true, decide_eq_true_eq] at h
  obtain ⟨⟨h1, h2⟩, h3⟩ := h
  have h1 := natEq h1
  have h2 := natEq h2
  have h3 := natEq h3
  obtain ⟨z, x, y, t'⟩ := hn
  rw [Nat.cast_mul, NPt.sub_cast, Nat.cast_mul, x] at h1
  rw [Nat.cast_mul, Nat.cast_add, Nat.cast_mul, y] at h2
  rw [Nat.cast_mul, Nat.cast_mul, Nat.cast_mul, t'] at h3
  push_cast at h1 h2 h3
  have e1 : (a : Fp) - s = 2 * A.x := mul_right_cancel₀ z (by linear_combination h1)
  have e2 : (a : Fp) + s = 2 * A.y := mul_right_cancel₀ z (by linear_combination h2)
  have e3 : (t : Fp) = 2 * d * (A.x * A.y) := mul_right_cancel₀ z (by
    rw [h3]; unfold d; ring)
  have two := two_ne
  refine ⟨1, one_ne_zero, ?_, ?_, ?_, by ring⟩
  · apply mul_left_cancel₀ two; linear_combination e1 + e2
  · apply mul_left_cancel₀ two; linear_combination e2 - e1
  · rw [e3, show curve.d = d from rfl]; ring

/-- The four words of component `c` of the multiple `m` in half `b` of sub-table `idx`. -/
def signF (idx b c m : ℕ) : F4 :=
  let w (j : ℕ) : W := signWord idx (2 * (24 * j + 3 * (m - 1) + c) + b)
  ⟨w 0, w 1, w 2, w 3⟩

/-- The entry for the multiple `m` is right. -/
def entryOk (n : NPt) (idx b m : ℕ) : Bool :=
  let a := F4.num (signF idx b 0 m)
  let s := F4.num (signF idx b 1 m)
  let t := F4.num (signF idx b 2 m)
  decide (a < 2 ^ 255) && decide (s < 2 ^ 255) && decide (t < 2 ^ 255) &&
  decide (t % 2 ^ 26 ≤ 0x3ffffed) && isPre n a s t

/-- The entries for the multiples `m + 1`, ..., `m + fuel` are right, `n` being `m` times `base`. -/
def entriesOk (base : NPt) (idx b : ℕ) : ℕ → ℕ → NPt → Bool
  | 0, _, _ => true
  | fuel + 1, m, n =>
    let n := n.add base
    entryOk n idx b (m + 1) && entriesOk base idx b fuel (m + 1) n

theorem entriesOk_spec {base : NPt} {A : Pt} (hb : base.Is A) (idx b : ℕ) :
    ∀ (fuel m : ℕ) (n : NPt), n.Is (m • A) → entriesOk base idx b fuel m n = true →
      ∀ k, m < k → k ≤ m + fuel → ∃ n' : NPt, n'.Is (k • A) ∧ entryOk n' idx b k = true
  | 0, m, n, _, _, k, h1, h2 => by omega
  | fuel + 1, m, n, hn, h, k, h1, h2 => by
    rw [entriesOk, Bool.and_eq_true] at h
    have hn' : (n.add base).Is ((m + 1) • A) := by rw [add_smul, one_smul]; exact hn.add hb
    by_cases hk : k = m + 1
    · subst hk; exact ⟨_, hn', h.1⟩
    · exact entriesOk_spec hb idx b fuel (m + 1) _ hn' h.2 k (by omega) (by omega)

/-- All sub-tables from `idx` on are right, the base of half `b` being `n b`. -/
def tablesOk : ℕ → ℕ → NPt → NPt → Bool
  | 0, _, _, _ => true
  | fuel + 1, idx, n0, n1 =>
    entriesOk n0 idx 0 8 0 ⟨0, 1, 1, 0⟩ && entriesOk n1 idx 1 8 0 ⟨0, 1, 1, 0⟩ &&
    tablesOk fuel (idx + 1) (n0.mul 9 256) (n1.mul 9 256)

theorem tablesOk_spec : ∀ (fuel idx : ℕ) (n0 n1 : NPt) (A0 A1 : Pt), n0.Is A0 → n1.Is A1 →
    tablesOk fuel idx n0 n1 = true → ∀ i < fuel, ∀ m, 0 < m → m ≤ 8 →
      (∃ n : NPt, n.Is (m • 256 ^ i • A0) ∧ entryOk n (idx + i) 0 m = true) ∧
      (∃ n : NPt, n.Is (m • 256 ^ i • A1) ∧ entryOk n (idx + i) 1 m = true)
  | 0, _, _, _, _, _, _, _, _, i, hi, _, _, _ => by omega
  | fuel + 1, idx, n0, n1, A0, A1, h0, h1, h, i, hi, m, m0, m8 => by
    rw [tablesOk, Bool.and_eq_true, Bool.and_eq_true] at h
    obtain ⟨⟨k0, k1⟩, k2⟩ := h
    match i with
    | 0 =>
      have z0 : (⟨0, 1, 1, 0⟩ : NPt).Is (0 • A0) := by rw [zero_smul]; exact NPt.Is.zero
      have z1 : (⟨0, 1, 1, 0⟩ : NPt).Is (0 • A1) := by rw [zero_smul]; exact NPt.Is.zero
      rw [pow_zero, one_smul, one_smul]
      exact ⟨entriesOk_spec h0 idx 0 8 0 _ z0 k0 m m0 (by omega),
        entriesOk_spec h1 idx 1 8 0 _ z1 k1 m m0 (by omega)⟩
    | i + 1 =>
      have := tablesOk_spec fuel (idx + 1) _ _ _ _ (h0.mul 9 256 (by norm_num))
        (h1.mul 9 256 (by norm_num)) k2 i (by omega) m m0 m8
      rw [smul_smul (256 ^ i), smul_smul (256 ^ i), ← pow_succ] at this
      rwa [show idx + (i + 1) = idx + 1 + i by ring]

theorem tables_ok : tablesOk 16 0 nB (nB.mul 129 (2 ^ 128)) = true := by decide +kernel

/-- The base of half `b` of sub-table `i`. -/
def signBase (i b : ℕ) : Pt := 256 ^ i • (2 ^ 128) ^ b • B

theorem table_entry (i b m : ℕ) (hi : i < 16) (hb : b < 2) (h0 : 0 < m) (h8 : m ≤ 8) :
    ∃ n : NPt, n.Is (m • signBase i b) ∧ entryOk n i b m = true := by
  have h := tablesOk_spec 16 0 _ _ _ _ nB_is (nB_is.mul 129 (2 ^ 128) (by norm_num)) tables_ok i hi
    m h0 h8
  rw [zero_add] at h
  match b, hb with
  | 0, _ => rw [signBase, pow_zero, one_smul]; exact h.1
  | 1, _ => rw [signBase, pow_one]; exact h.2

end Verif.Ed25519
