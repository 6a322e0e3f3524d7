import Verif.Vec.KeygenMem
import Verif.Vec.MultMemLemmas
import Verif.Props.Ed448Scalar

/-!
# Lemmas about key generation on memory -/

namespace Verif.Vec

set_option exponentiation.threshold 2000

theorem p2w_at (m : Mem) (o : ℕ) : p2w.at m (o, 0) = ⟨e2.at m (o, 0), e2.at m (o, 5)⟩ := by
  simp only [Lay.at, p2w, Nat.zero_add]

theorem q2w_at (m : Mem) (o : ℕ) : q2w.at m (o, 0) = ⟨g2.at m (o, 0), g2.at m (o, 8)⟩ := by
  simp only [Lay.at, q2w, Nat.zero_add]

theorem keygen25519_spec (isa : Fp25519.Isa) (ρ : ℕ → Regs) (sk k : ℕ) (w : World) :
    ∃ m : Mem, keygen25519 isa ρ sk k w =
        ⟨storeAt w.caller sk (X25519.keygen isa (bytesAt w.caller k 32)), m⟩ ∧
      m 1 0 = LIT 0 ∧
      ∀ n < 64, wordAt m 13 n = Ed25519.list_digits (X25519.div_8_256 (Fp25519.F4.ofBytes
          (X25519.clamp (bytesAt w.caller k 32)))).toBytes n ∧
        wordAt m 14 n = Ed25519.list_signs (X25519.div_8_256 (Fp25519.F4.ofBytes
          (X25519.clamp (bytesAt w.caller k 32)))).toBytes n := by
  delta keygen25519
  extract_lets m0 m1 m2 m3 m4 m5 m6 m7 m8 m9 m10 m11 m12 m13 m14 m15 m16 m17 m18
  have hk := length_bytesAt w.caller k 32
  have k3 : toF4 (m3 1 0)
      = X25519.div_8_256 (Fp25519.F4.ofBytes (X25519.clamp (bytesAt w.caller k 32))) := by
    simp only [m3, m2, m1]
    rw [set_self, toF4_ofF4, set_self, toF4_ofF4, set_self, toF4_ofF4, toBytes_ofBytes4 hk]
  obtain ⟨x4, -, d4⟩ := mult25519_spec (fun n => ρ (n + 9)) 11 (0, 0) (by decide)
    (toF4 (m3 1 0)).toBytes m3
  change p2w.at m4 (0, 0) = _ at x4
  change ∀ n < 64, wordAt m4 13 n = _ ∧ wordAt m4 14 n = _ at d4
  clear_value m4
  rw [k3] at x4 d4
  have k5 : m5 1 0 = LIT 0 := set_self _ _ _ _
  have x5 : p2w.at m5 (0, 0) = p2w.at m4 (0, 0) := at_set p2w_loc (by decide)
  have o5 : ∀ o c, o ≠ 1 → m5 o c = m4 o c := fun o c h => set_obj h
  clear_value m5
  obtain ⟨x6, f6⟩ := p_doubling_2w m5 (ρ 0) (0, 0) (2, 0) (apart_obj (by decide))
  change p2w.at m6 _ = _ at x6
  obtain ⟨x7, f7⟩ := p_doubling_2w m6 (ρ 1) (0, 0) (2, 0) (apart_obj (by decide))
  change p2w.at m7 _ = _ at x7
  obtain ⟨x8, f8⟩ := p_doubling_2w m7 (ρ 2) (0, 0) (2, 0) (apart_obj (by decide))
  change p2w.at m8 _ = _ at x8
  have o8 : ∀ o c, o ≠ 0 → o ≠ 2 → m8 o c = m5 o c := fun o c h h' =>
    (f8 o c (not_in_obj h) (not_in_obj h')).trans
      ((f7 o c (not_in_obj h) (not_in_obj h')).trans (f6 o c (not_in_obj h) (not_in_obj h')))
  rw [x7, x6, x5, x4, p2w_at] at x8
  clear_value m8
  obtain ⟨a9, f9⟩ := e2_add m8 (ρ 3) (9, 0) (0, 5) (0, 0) (Or.inr (apart_obj (by decide)))
    (Or.inr (apart_obj (by decide)))
  change e2.at m9 _ = _ at a9
  obtain ⟨s10, f10⟩ := e2_sub m9 (ρ 4) (10, 0) (0, 5) (0, 0) (Or.inr (apart_obj (by decide)))
    (Or.inr (apart_obj (by decide)))
  change e2.at m10 _ = _ at s10
  rw [at_apart e2_loc f9 (apart_obj (by decide)), at_apart e2_loc f9 (apart_obj (by decide))]
    at s10
  have a10 : e2.at m10 (9, 0) = e2.at m9 (9, 0) := at_apart e2_loc f10 (apart_obj (by decide))
  obtain ⟨a11, f11⟩ := e2_compress m10 (ρ 5) (9, 0)
  change e2.at m11 _ = _ at a11
  obtain ⟨s12, f12⟩ := e2_compress m11 (ρ 6) (10, 0)
  change e2.at m12 _ = _ at s12
  rw [at_apart e2_loc f11 (apart_obj (by decide))] at s12
  have a12 : e2.at m12 (9, 0) = e2.at m11 (9, 0) := at_apart e2_loc f12 (apart_obj (by decide))
  obtain ⟨x13, f13⟩ := e2_deinter m12 (ρ 7) (8, 0) (6, 0) (9, 0) (apart_obj (by decide))
    fun P hP => by rcases List.mem_pair.1 hP with rfl | rfl <;> exact apart_obj (by decide)
  have s13 : e2.at m13 (10, 0) = e2.at m12 (10, 0) :=
    at_obj e2_loc fun c => f13 _ _ (not_in_obj (by decide)) (not_in_obj (by decide))
  obtain ⟨z14, f14⟩ := e2_deinter m13 (ρ 8) (8, 0) (7, 0) (10, 0) (apart_obj (by decide))
    fun P hP => by rcases List.mem_pair.1 hP with rfl | rfl <;> exact apart_obj (by decide)
  have x14 : e1.at m14 (6, 0) = e1.at m13 (6, 0) :=
    at_obj e1_loc fun c => f14 _ _ (not_in_obj (by decide)) (not_in_obj (by decide))
  have x13' := congrArg Prod.snd x13
  have z14' := congrArg Prod.snd z14
  simp only at x13' z14'
  change e1.at m13 _ = _ at x13'
  change e1.at m14 _ = _ at z14'
  rw [a12, a11, a10, a9] at x13'
  rw [s13, s12, s10] at z14'
  have o14 : ∀ o c, o ≠ 0 → o ≠ 2 → o ≠ 9 → o ≠ 10 → o ≠ 8 → o ≠ 6 → o ≠ 7 →
      m14 o c = m5 o c := fun o c h1 h2 h3 h4 h5 h6 h7 => by
    rw [show m14 o c = m13 o c from f14 o c (not_in_obj h5) (not_in_obj h7),
      show m13 o c = m12 o c from f13 o c (not_in_obj h5) (not_in_obj h6),
      show m12 o c = m11 o c from f12 o c (not_in_obj h4),
      show m11 o c = m10 o c from f11 o c (not_in_obj h3),
      show m10 o c = m9 o c from f10 o c (not_in_obj h4),
      show m9 o c = m8 o c from f9 o c (not_in_obj h3), o8 o c h1 h2]
  clear_value m14
  have x15 : toF4 (m15 3 0) = Fp25519.F4.ofBytes (Fp25519.R1.ser (e1.at m14 (6, 0))) := by
    simp only [m15]; rw [set_self, toF4_ofF4]
  have z15 : e1.at m15 (7, 0) = e1.at m14 (7, 0) := at_set e1_loc (by decide)
  have z16 : toF4 (m16 4 0) = Fp25519.F4.ofBytes (Fp25519.R1.ser (e1.at m14 (7, 0))) := by
    simp only [m16]; rw [set_self, toF4_ofF4, z15]
  have x17 : toF4 (m17 3 0) = toF4 (m15 3 0) := by simp [m17, m16, Mem.set]
  have i17 : toF4 (m17 5 0) = Fp25519.Full.inv isa (toF4 (m16 4 0)) := by
    simp only [m17]; rw [set_self, toF4_ofF4]
  have x18 : toF4 (m18 3 0) = Fp25519.Full.mul isa (toF4 (m17 3 0)) (toF4 (m17 5 0)) := by
    simp only [m18]; rw [set_self, toF4_ofF4]
  have o18 : ∀ o c, o ≠ 3 → o ≠ 4 → o ≠ 5 → m18 o c = m14 o c := fun o c h1 h2 h3 => by
    simp only [m18, m17, m16, m15]
    rw [set_obj h1, set_obj h3, set_obj h2, set_obj h1]
  refine ⟨m18, ?_, ?_, fun n hn => ?_⟩
  · rw [x18, x17, i17, x15, z16, x14, x13', z14']
    rw [X25519.keygen]
    simp only
    rw [← x8]
    rw [X25519.point_Edwards2Montgomery]
  · rw [o18 _ _ (by decide) (by decide) (by decide), o14 _ _ (by decide) (by decide) (by decide)
      (by decide) (by decide) (by decide) (by decide), k5]
  · have e : ∀ o, o ≠ 0 → o ≠ 1 → o ≠ 2 → o ≠ 9 → o ≠ 10 → o ≠ 8 → o ≠ 6 → o ≠ 7 → o ≠ 3 →
        o ≠ 4 → o ≠ 5 → wordAt m18 o n = wordAt m4 o n := fun o h0 h1 h2 h3 h4 h5 h6 h7 h8 h9 h10 =>
      wordAt_congr (fun c => by rw [o18 o c h8 h9 h10, o14 o c h0 h2 h3 h4 h5 h6 h7, o5 o c h1]) n
    rw [e 13 (by decide) (by decide) (by decide) (by decide) (by decide) (by decide) (by decide)
      (by decide) (by decide) (by decide) (by decide),
      e 14 (by decide) (by decide) (by decide) (by decide) (by decide) (by decide) (by decide)
      (by decide) (by decide) (by decide) (by decide)]
    exact d4 n hn

theorem get7_put7 (m : Mem) (o : ℕ) (a : Fp448.F7) :
    toF7 (put7 m o a o 0) (put7 m o a o 1) = a := by
  simp [toF7, put7, Mem.set]

theorem put7_obj {m : Mem} {o o' c : ℕ} {a : Fp448.F7} (h : o' ≠ o) :
    put7 m o a o' c = m o' c := by
  simp only [put7]; rw [set_obj h, set_obj h]

theorem putG1_obj {m : Mem} {o o' c : ℕ} {e : Fp448.Elt8 U} (h : o' ≠ o) :
    putG1 m o e o' c = m o' c := by
  simp only [putG1]; rw [set_obj h, set_obj h, set_obj h, set_obj h]

theorem byte_low (q : W) (x : Byte) :
    ((q &&& 0xffffffffffffff00#64) ||| x.setWidth 64).setWidth 8 = x := by
  ext i hi
  have : i = 0 ∨ i = 1 ∨ i = 2 ∨ i = 3 ∨ i = 4 ∨ i = 5 ∨ i = 6 ∨ i = 7 := by omega
  rcases this with rfl | rfl | rfl | rfl | rfl | rfl | rfl | rfl <;> simp

theorem get57_put57 {l : List Byte} (hl : l.length = 57) (m : Mem) (o : ℕ) :
    get57 (put57 m o l) o = l := by
  have e : toF7 (put57 m o l o 0) (put57 m o l o 1) = Fp448.F7.ofBytes (l.take 56) := by
    simp [toF7, put57, put7, Mem.set]
  have e' : ((put57 m o l o 1).q3.setWidth 8 : Byte) = l.getD 56 0 := by
    have : (put57 m o l o 1).q3 = ((put7 m o (Fp448.F7.ofBytes (l.take 56)) o 1).q3 &&&
        0xffffffffffffff00#64 ||| (l.getD 56 0).setWidth 64) := by
      simp only [put57]; rw [set_self]
    rw [this, byte_low]
  rw [get57, e, e', toBytes_ofBytes7 (by simp [hl])]
  conv_rhs => rw [← List.take_append_drop 56 l]
  congr 1
  rw [List.drop_eq_getElem_cons (by omega), List.drop_of_length_le (by omega)]
  simp [List.getD_eq_getElem?_getD, hl]

theorem keygen448_spec (u13 u14 : W) (ρ : ℕ → Regs) (sk k : ℕ) (w : World) :
    ∃ m : Mem, keygen448 u13 u14 ρ sk k w =
        ⟨storeAt w.caller sk (X448.keygen u13 u14 (bytesAt w.caller k 56)), m⟩ ∧
      toF7 (m 1 0) (m 1 1) = ⟨0, 0, 0, 0, 0, 0, 0⟩ ∧
      get57 m 2 = Ed448.div4 u13 u14 (X448.clamp (bytesAt w.caller k 56)) ∧
      ∀ n < 112, wordAt m 8 n
          = Ed448.list_digits (Ed448.div4 u13 u14 (X448.clamp (bytesAt w.caller k 56))) n ∧
        wordAt m 9 n
          = Ed448.list_signs (Ed448.div4 u13 u14 (X448.clamp (bytesAt w.caller k 56))) n := by
  delta keygen448
  extract_lets m0 m1 m2 m3 m4 m5 m6 m7 m8 m9
  have hk := length_bytesAt w.caller k 56
  have k2 : toF7 (m2 1 0) (m2 1 1) = Fp448.F7.ofBytes (X448.clamp (bytesAt w.caller k 56)) := by
    simp only [m2, m1]
    rw [get7_put7, get7_put7, toBytes_ofBytes7 hk]
  have k3 : get57 m3 2 = Ed448.div4 u13 u14 (X448.clamp (bytesAt w.caller k 56)) := by
    simp only [m3]
    rw [get57_put57 (Ed448.C46_div4_lt _ _ _).1, k2, toBytes_ofBytes7 (length_clamp448 hk)]
  clear_value m3
  obtain ⟨x4, f4, d4⟩ := mult448_spec (fun n => ρ (n + 3)) 6 (0, 0) (by decide) (get57 m3 2) m3
  change q2w.at m4 (0, 0) = _ at x4
  change ∀ o c, _ → _ → m4 o c = _ at f4
  change ∀ n < 112, wordAt m4 8 n = _ ∧ wordAt m4 9 n = _ at d4
  clear_value m4
  rw [k3] at x4 d4
  rw [q2w_at] at x4
  have k5 : toF7 (m5 1 0) (m5 1 1) = ⟨0, 0, 0, 0, 0, 0, 0⟩ := get7_put7 _ _ _
  have x5 : g2.at m5 (0, 0) = g2.at m4 (0, 0) := at_obj g2_loc fun c => put7_obj (by decide)
  have o5 : ∀ o c, o ≠ 1 → m5 o c = m4 o c := fun o c h => put7_obj h
  clear_value m5
  obtain ⟨x6, f6⟩ := g2_deinter m5 (ρ 0) (3, 0) (4, 0) (0, 0) (apart_obj (by decide))
    fun P hP => by rcases List.mem_pair.1 hP with rfl | rfl <;> exact apart_obj (by decide)
  change (g1.at m6 _, g1.at m6 _) = _ at x6
  change ∀ o c, _ → _ → m6 o c = _ at f6
  clear_value m6
  have y7 : g1.at m7 (4, 0) = g1.at m6 (4, 0) := at_obj g1_loc fun c => putG1_obj (by decide)
  have i7 : g1.at m7 (5, 0) = Fp448.R1.inv (g1.at m6 (3, 0)) := at_putG1 _ _ _
  have f7 : ∀ o c, o ≠ 5 → m7 o c = m6 o c := fun o c h => putG1_obj h
  clear_value m7
  obtain ⟨x8, f8⟩ := g1_mul m7 (ρ 1) (3, 0) (4, 0) (5, 0) (Or.inr (apart_obj (by decide)))
    (Or.inr (apart_obj (by decide)))
  change g1.at m8 _ = _ at x8
  change ∀ o c, _ → m8 o c = _ at f8
  clear_value m8
  obtain ⟨x9, f9⟩ := g1_sqr m8 (ρ 2) (3, 0)
  change g1.at m9 _ = _ at x9
  change ∀ o c, _ → m9 o c = _ at f9
  clear_value m9
  have o9 : ∀ o c, o ≠ 3 → o ≠ 4 → o ≠ 5 → m9 o c = m5 o c := fun o c h1 h2 h3 => by
    rw [f9 o c (not_in_obj h1), f8 o c (not_in_obj h1), f7 o c h3,
      f6 o c (not_in_obj h1) (not_in_obj h2)]
  refine ⟨m9, ?_, ?_, ?_, fun n hn => ?_⟩
  · rw [x9, x8, y7, i7]
    rw [X448.keygen]
    simp only [Ed448.fixed_point_multiplication]
    rw [X448.point_Edwards2Montgomery, X448.montElt, ← x4]
    simp only
    rw [← x5, ← x6]
  · rw [o9 _ _ (by decide) (by decide) (by decide), o9 _ _ (by decide) (by decide) (by decide), k5]
  · rw [← k3]
    have e : ∀ c, m9 2 c = m3 2 c := fun c => by
      rw [o9 _ _ (by decide) (by decide) (by decide), o5 _ _ (by decide),
        f4 _ _ (by decide) (not_in_obj (by decide))]
    simp only [get57, e]
  · have e : ∀ o, o ≠ 1 → o ≠ 3 → o ≠ 4 → o ≠ 5 → wordAt m9 o n = wordAt m4 o n :=
      fun o h1 h2 h3 h4 => wordAt_congr (fun c => by rw [o9 o c h2 h3 h4, o5 o c h1]) n
    rw [e 8 (by decide) (by decide) (by decide) (by decide),
      e 9 (by decide) (by decide) (by decide) (by decide)]
    exact d4 n hn

end Verif.Vec
