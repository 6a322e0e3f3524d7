import Verif.Vec.SharedMem
import Verif.Vec.LinkLadder25519
import Verif.Vec.LinkLadder448
import Verif.Vec.PointShapes
import Verif.Fp25519.FullLemmas
import Verif.Fp448.FullLemmas

/-!
# Lemmas about the shared-secret functions on memory -/

namespace Verif.Vec

set_option exponentiation.threshold 2000

theorem apart_obj {P Q : Place} {a b : ℕ} (h : P.1 ≠ Q.1) : Apart P a Q b := by
  rintro o c ⟨h1, h2⟩
  exact h (h1.1.symm.trans h2.1)

theorem not_in_obj {P : Place} {n o c : ℕ} (h : o ≠ P.1) : ¬In P n o c := fun h' => h h'.1

section ladders
variable (m : Mem) (ρ : Regs) {K X Z S : Place}

/-- The main loop of X25519 in memory. -/
theorem ladder25519_call (hkx : Apart K 1 X 5) (hkz : Apart K 1 Z 5) (hks : Apart K 1 S 20)
    (hxz : Apart X 5 Z 5) (hxs : Apart X 5 S 20) (hzs : Apart Z 5 S 20) :
    let m' := L25519.ladder.call [K, X, Z, S] m ρ
    let s := X25519.Avx2.mainLoop (e2.at m X) (toF4 (m K.1 K.2)) ⟨e2.at m X, e2.at m Z, 0#64⟩
    e2.at m' X = s.X2X3 ∧ e2.at m' Z = s.Z2Z3 ∧
      ∀ o c, ¬In X 5 o c → ¬In Z 5 o c → ¬In S 20 o c → m' o c = m o c := by
  obtain ⟨h1, h2, h3⟩ := call4 (L := e2) (f := L25519.ladder) e2_loc rfl rfl
    (Fn.ok_of_check [1, 2] l_check) hkx hkz hks hxz hxs hzs m ρ
  have h := l_run (view (args [K, X, Z, S]) m, ρ)
  exact ⟨h1.trans h.1, h2.trans h.2, h3⟩

/-- The main loop of X448 in memory. -/
theorem ladder448_call (hkx : Apart K 2 X 8) (hkz : Apart K 2 Z 8) (hks : Apart K 2 S 32)
    (hxz : Apart X 8 Z 8) (hxs : Apart X 8 S 32) (hzs : Apart Z 8 S 32) :
    let m' := L448.ladder.call [K, X, Z, S] m ρ
    let s := X448.mainLoop (g2.at m X) (toF7 (m K.1 K.2) (m K.1 (K.2 + 1)))
      ⟨g2.at m X, g2.at m Z, 0#64⟩
    g2.at m' X = s.X2X3 ∧ g2.at m' Z = s.Z2Z3 ∧
      ∀ o c, ¬In X 8 o c → ¬In Z 8 o c → ¬In S 32 o c → m' o c = m o c := by
  obtain ⟨h1, h2, h3⟩ := call4 (L := g2) (f := L448.ladder) g2_loc rfl rfl
    (Fn.ok_of_check [1, 2] k_check) hkx hkz hks hxz hxs hzs m ρ
  have h := k_run (view (args [K, X, Z, S]) m, ρ)
  exact ⟨h1.trans h.1, h2.trans h.2, h3⟩

end ladders

theorem toF4_ofF4 (a : Fp25519.F4) : toF4 (ofF4 a) = a := rfl

theorem toBytes_ofBytes4 {b : List Byte} (h : b.length = 32) :
    (Fp25519.F4.ofBytes b).toBytes = b :=
  leNat_inj (by rw [Fp25519.F4.toBytes_length, h]) (by
    have := Fp25519.F4.leNat_toBytes (Fp25519.F4.ofBytes b)
    rw [Fp25519.F4.ofBytes_val h] at this
    exact_mod_cast this)

theorem toBytes_ofBytes7 {b : List Byte} (h : b.length = 56) :
    (Fp448.F7.ofBytes b).toBytes = b :=
  leNat_inj (by rw [Fp448.F7.toBytes_length, h]) (by
    have := Fp448.F7.leNat_toBytes (Fp448.F7.ofBytes b)
    rw [Fp448.F7.ofBytes_val h] at this
    exact_mod_cast this)

theorem set_self (m : Mem) (o c : ℕ) (v : V) : (m.set o c v) o c = v := by
  simp only [Mem.set, if_true]

theorem set_obj {m : Mem} {o c o' c' : ℕ} {v : V} (h : o' ≠ o) : (m.set o c v) o' c' = m o' c' := by
  simp only [Mem.set, h, if_false]

theorem at_obj {E : Type} {L : Lay E} (hL : L.Loc) {m m' : Mem} {P : Place}
    (h : ∀ c, m' P.1 c = m P.1 c) : L.at m' P = L.at m P :=
  at_unchanged hL fun o c hi => by rw [hi.1]; exact h c

theorem at_set {E : Type} {L : Lay E} (hL : L.Loc) {m : Mem} {P : Place} {o c : ℕ} {v : V}
    (h : P.1 ≠ o) : L.at (m.set o c v) P = L.at m P :=
  at_obj hL fun _ => set_obj h

theorem at_putE1 (m : Mem) (o : ℕ) (e : Fp25519.Elt5 U) : e1.at (putE1 m o e) (o, 0) = e := by
  simp [Lay.at, e1, putE1, Mem.set, Vec4.lo, Vec4.hi]

theorem at_putG1 (m : Mem) (o : ℕ) (e : Fp448.Elt8 U) : g1.at (putG1 m o e) (o, 0) = e := by
  simp [Lay.at, g1, putG1, Mem.set, Vec4.lo, Vec4.hi]

theorem length_clamp {b : List Byte} (h : b.length = 32) : (X25519.clamp b).length = 32 := by
  simp [X25519.clamp, h]

theorem length_maskTop {b : List Byte} (h : b.length = 32) : (X25519.maskTop b).length = 32 := by
  simp [X25519.maskTop, h]

theorem length_clamp448 {b : List Byte} (h : b.length = 56) : (X448.clamp b).length = 56 := by
  simp [X448.clamp, h]

theorem shared25519_spec (isa : Fp25519.Isa) (ρ : ℕ → Regs) (ss sk k : ℕ) (w : World) :
    ∃ m : Mem, shared25519 isa ρ ss sk k w =
        ⟨storeAt w.caller ss
          (X25519.Avx2.shared isa (bytesAt w.caller sk 32) (bytesAt w.caller k 32)), m⟩ ∧
      m 0 0 = LIT 0 := by
  delta shared25519
  extract_lets m0 m1 m2 m3 m4 m5 m6 m7 m8 m9 m10 m11 m12 m13 m14 m15 m16 m17
  have hk := length_bytesAt w.caller k 32
  have hs := length_bytesAt w.caller sk 32
  -- the arguments
  have k3 : m3 0 0 = ofF4 (Fp25519.F4.ofBytes (bytesAt w.caller k 32)) := set_self _ _ _ _
  have k4 : toF4 (m4 0 0) = Fp25519.F4.ofBytes (X25519.clamp (bytesAt w.caller k 32)) := by
    simp only [m4]
    rw [set_self, toF4_ofF4, k3, toF4_ofF4, toBytes_ofBytes4 hk]
  have s5 : m5 1 0 = ofF4 (Fp25519.F4.ofBytes (bytesAt w.caller sk 32)) := set_self _ _ _ _
  have s6 : toF4 (m6 1 0) = Fp25519.F4.ofBytes (X25519.maskTop (bytesAt w.caller sk 32)) := by
    simp only [m6]
    rw [set_self, toF4_ofF4, s5, toF4_ofF4, toBytes_ofBytes4 hs]
  have u7 : e1.at m7 (4, 0) = Fp25519.R1.unser (X25519.maskTop (bytesAt w.caller sk 32)) := by
    simp only [m7]
    rw [at_putE1, s6, toBytes_ofBytes4 (length_maskTop hs)]
  have u8 : e1.at m8 (4, 0) = Fp25519.R1.unser (X25519.maskTop (bytesAt w.caller sk 32)) := by
    rw [← u7]; exact at_set e1_loc (by decide)
  have k8 : toF4 (m8 0 0) = Fp25519.F4.ofBytes (X25519.clamp (bytesAt w.caller k 32)) := by
    rw [← k4]
    simp [m8, m7, m6, m5, putE1, Mem.set]
  have z8 : e2.at m8 (3, 0) = ⟨SET64 0 1 0 0, LIT 0, LIT 0, LIT 0, LIT 0⟩ := by
    simp [m8, m7, m6, m5, m4, m3, m2, putE1, Mem.set, zeros, Lay.at, e2]
  clear_value m8
  -- inter
  obtain ⟨x9, f9⟩ := e2_inter m8 (ρ 0) (2, 0) (4, 0) (4, 0) fun P hP => by
    rcases List.mem_pair.1 hP with rfl | rfl <;> exact apart_obj (by decide)
  rw [u8] at x9
  have z9 : e2.at m9 (3, 0) = e2.at m8 (3, 0) := at_obj e2_loc fun c => f9 _ _ (not_in_obj (by decide))
  have k9 : m9 0 0 = m8 0 0 := f9 _ _ (not_in_obj (by decide))
  -- the main loop
  obtain ⟨x10, z10, -⟩ := ladder25519_call m9 (ρ 1) (K := (0, 0)) (X := (2, 0)) (Z := (3, 0))
    (S := (10, 0)) (apart_obj (by decide)) (apart_obj (by decide)) (apart_obj (by decide))
    (apart_obj (by decide)) (apart_obj (by decide)) (apart_obj (by decide))
  rw [k9, k8, z9, z8, show e2.at m9 (2, 0) = _ from x9] at x10 z10
  have x11 : e2.at m11 (2, 0) = e2.at m10 (2, 0) := at_set e2_loc (by decide)
  have z11 : e2.at m11 (3, 0) = e2.at m10 (3, 0) := at_set e2_loc (by decide)
  have k11 : m11 0 0 = LIT 0 := set_self _ _ _ _
  -- deinter
  obtain ⟨x12, f12⟩ := e2_deinter m11 (ρ 2) (5, 0) (4, 0) (2, 0) (apart_obj (by decide))
    fun P hP => by rcases List.mem_pair.1 hP with rfl | rfl <;> exact apart_obj (by decide)
  have z12 : e2.at m12 (3, 0) = e2.at m11 (3, 0) :=
    at_obj e2_loc fun c => f12 _ _ (not_in_obj (by decide)) (not_in_obj (by decide))
  have k12 : m12 0 0 = m11 0 0 := f12 _ _ (not_in_obj (by decide)) (not_in_obj (by decide))
  obtain ⟨z13, f13⟩ := e2_deinter m12 (ρ 3) (6, 0) (4, 0) (3, 0) (apart_obj (by decide))
    fun P hP => by rcases List.mem_pair.1 hP with rfl | rfl <;> exact apart_obj (by decide)
  have x13 : e1.at m13 (5, 0) = e1.at m12 (5, 0) :=
    at_obj e1_loc fun c => f13 _ _ (not_in_obj (by decide)) (not_in_obj (by decide))
  have k13 : m13 0 0 = m12 0 0 := f13 _ _ (not_in_obj (by decide)) (not_in_obj (by decide))
  have x12' := congrArg Prod.fst x12
  have z13' := congrArg Prod.fst z13
  simp only at x12' z13'
  rw [x11, x10] at x12'
  rw [z12, z11, z10] at z13'
  have x14 : toF4 (m14 7 0) = Fp25519.F4.ofBytes (Fp25519.R1.ser (e1.at m13 (5, 0))) := by
    simp only [m14]; rw [set_self, toF4_ofF4]
  have z14 : e1.at m14 (6, 0) = e1.at m13 (6, 0) := at_set e1_loc (by decide)
  have z15 : toF4 (m15 8 0) = Fp25519.F4.ofBytes (Fp25519.R1.ser (e1.at m13 (6, 0))) := by
    simp only [m15]; rw [set_self, toF4_ofF4, z14]
  have x16 : toF4 (m16 7 0) = toF4 (m14 7 0) := by simp [m16, m15, Mem.set]
  have i16 : toF4 (m16 9 0) = Fp25519.Full.inv isa (toF4 (m15 8 0)) := by
    simp only [m16]; rw [set_self, toF4_ofF4]
  have x17 : toF4 (m17 7 0) = Fp25519.Full.mul isa (toF4 (m16 7 0)) (toF4 (m16 9 0)) := by
    simp only [m17]; rw [set_self, toF4_ofF4]
  refine ⟨m17, ?_, ?_⟩
  · rw [x17, x16, i16, x14, z15, x13, x12', z13']
    rw [X25519.Avx2.shared]
  · rw [← k11, ← k12, ← k13]
    simp [m17, m16, m15, m14, Mem.set]

theorem shared448_spec (ρ : ℕ → Regs) (ss sk k : ℕ) (w : World) :
    ∃ m : Mem, shared448 ρ ss sk k w =
        ⟨storeAt w.caller ss (X448.shared (bytesAt w.caller sk 56) (bytesAt w.caller k 56)), m⟩ ∧
      toF7 (m 0 0) (m 0 1) = ⟨0, 0, 0, 0, 0, 0, 0⟩ := by
  delta shared448
  extract_lets m0 m1 m2 m3 m4 m5 m6 m7 m8 m9 m10 m11 m12 m13 m14
  have hk := length_bytesAt w.caller k 56
  have hs := length_bytesAt w.caller sk 56
  have get7 : ∀ (m : Mem) (o : ℕ) (a : Fp448.F7), toF7 (put7 m o a o 0) (put7 m o a o 1) = a := by
    intro m o a
    simp [toF7, put7, Mem.set]
  -- the arguments
  have k4 : toF7 (m4 0 0) (m4 0 1) = Fp448.F7.ofBytes (X448.clamp (bytesAt w.caller k 56)) := by
    simp only [m4, m3]
    rw [get7, get7, toBytes_ofBytes7 hk]
  have u6 : g1.at m6 (4, 0) = Fp448.R1.unser (bytesAt w.caller sk 56) := by
    simp only [m6, m5]
    rw [at_putG1, get7, toBytes_ofBytes7 hs]
  have u7 : g1.at m7 (4, 0) = Fp448.R1.unser (bytesAt w.caller sk 56) := by
    rw [← u6]; exact at_set g1_loc (by decide)
  have k7 : toF7 (m7 0 0) (m7 0 1) = Fp448.F7.ofBytes (X448.clamp (bytesAt w.caller k 56)) := by
    rw [← k4]
    simp [m7, m6, m5, putG1, put7, Mem.set]
  have z7 : g2.at m7 (3, 0)
      = ⟨SET64 0 1 0 0, LIT 0, LIT 0, LIT 0, LIT 0, LIT 0, LIT 0, LIT 0⟩ := by
    simp [m7, m6, m5, m4, m3, m2, m1, putG1, put7, Mem.set, zeros, Lay.at, g2]
  clear_value m7
  -- inter
  obtain ⟨x8, f8⟩ := g2_inter m7 (ρ 0) (2, 0) (4, 0) (4, 0) fun P hP => by
    rcases List.mem_pair.1 hP with rfl | rfl <;> exact apart_obj (by decide)
  rw [u7] at x8
  have z8 : g2.at m8 (3, 0) = g2.at m7 (3, 0) := at_obj g2_loc fun c => f8 _ _ (not_in_obj (by decide))
  have k8 : m8 0 = m7 0 := funext fun c => f8 _ _ (not_in_obj (by decide))
  -- the main loop
  obtain ⟨x9, z9, -⟩ := ladder448_call m8 (ρ 1) (K := (0, 0)) (X := (2, 0)) (Z := (3, 0))
    (S := (8, 0)) (apart_obj (by decide)) (apart_obj (by decide)) (apart_obj (by decide))
    (apart_obj (by decide)) (apart_obj (by decide)) (apart_obj (by decide))
  simp only [Nat.zero_add] at x9 z9
  rw [k8, k7, z8, z7, show g2.at m8 (2, 0) = _ from x8] at x9 z9
  have x10 : g2.at m10 (2, 0) = g2.at m9 (2, 0) := at_obj g2_loc fun c => by
    simp [m10, put7, Mem.set]
  have z10 : g2.at m10 (3, 0) = g2.at m9 (3, 0) := at_obj g2_loc fun c => by
    simp [m10, put7, Mem.set]
  have k10 : toF7 (m10 0 0) (m10 0 1) = ⟨0, 0, 0, 0, 0, 0, 0⟩ := get7 _ _ _
  -- deinter
  obtain ⟨x11, f11⟩ := g2_deinter m10 (ρ 2) (5, 0) (4, 0) (2, 0) (apart_obj (by decide))
    fun P hP => by rcases List.mem_pair.1 hP with rfl | rfl <;> exact apart_obj (by decide)
  have z11 : g2.at m11 (3, 0) = g2.at m10 (3, 0) :=
    at_obj g2_loc fun c => f11 _ _ (not_in_obj (by decide)) (not_in_obj (by decide))
  have k11 : m11 0 = m10 0 :=
    funext fun c => f11 _ _ (not_in_obj (by decide)) (not_in_obj (by decide))
  obtain ⟨z12, f12⟩ := g2_deinter m11 (ρ 3) (6, 0) (4, 0) (3, 0) (apart_obj (by decide))
    fun P hP => by rcases List.mem_pair.1 hP with rfl | rfl <;> exact apart_obj (by decide)
  have x12 : g1.at m12 (5, 0) = g1.at m11 (5, 0) :=
    at_obj g1_loc fun c => f12 _ _ (not_in_obj (by decide)) (not_in_obj (by decide))
  have k12 : m12 0 = m11 0 :=
    funext fun c => f12 _ _ (not_in_obj (by decide)) (not_in_obj (by decide))
  have x11' := congrArg Prod.fst x11
  have z12' := congrArg Prod.fst z12
  simp only at x11' z12'
  rw [x10, x9] at x11'
  rw [z11, z10, z9] at z12'
  have x13 : g1.at m13 (5, 0) = g1.at m12 (5, 0) := at_obj g1_loc fun c => by
    simp [m13, putG1, Mem.set]
  have i13 : g1.at m13 (7, 0) = Fp448.R1.inv (g1.at m12 (6, 0)) := at_putG1 _ _ _
  have k13 : m13 0 = m12 0 := funext fun c => by simp [m13, putG1, Mem.set]
  obtain ⟨x14, f14⟩ := g1_mul m13 (ρ 4) (5, 0) (5, 0) (7, 0) (Or.inl rfl)
    (Or.inr (apart_obj (by decide)))
  have k14 : m14 0 = m13 0 := funext fun c => f14 _ _ (not_in_obj (by decide))
  refine ⟨m14, ?_, ?_⟩
  · rw [x14, i13, x13, x12, x11', z12']
    rw [X448.shared, X448.sharedElt, X448.affine]
  · rw [k14, k13, k12, k11, k10]

end Verif.Vec
