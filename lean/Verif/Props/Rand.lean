import Verif.Prng.Rand
import Verif.Props.Prng
import Verif.Props.Fp448Wide
import Verif.Fp25519.RedSer
import Verif.Fp25519.RedApiLemmas
import Mathlib.Data.Int.CardIntervalMod
import Mathlib.Data.Set.Card

/-!
# Property C85: random field elements and keys

`Sys` says what the calls of `read` on the device do.  `Drawn read n b` says that the `n` bytes `b`
are what successive calls returned, put one after the other: no byte is used twice and none is
left out.
-/

namespace Verif.Prng

set_option exponentiation.threshold 2000

/-- The `n` bytes `b` are the bytes that the calls number 0, 1, 2, … returned, each asked for the
bytes still missing. -/
def Drawn (read : Sys) (n : ℕ) (b : List Byte) : Prop :=
  b.length = n ∧ ∃ chunks : List (List Byte), b = chunks.flatten ∧
    ∀ i (h : i < chunks.length),
      read i (n - (chunks.take i).flatten.length) = some chunks[i]

/-- No call fails. -/
def NoFail (read : Sys) : Prop := ∀ k n, read k n ≠ none

theorem NoFail.isolated {read : Sys} (h : NoFail read) : Isolated read :=
  fun k n e => absurd e (h k n)

theorem write_end (acc b : List Byte) (m : ℕ) :
    write (acc.map some ++ List.replicate m none) acc.length b =
      (acc ++ b).map some ++ List.replicate (m - b.length) none := by
  rw [write, List.take_left' (by simp), List.map_append, List.append_assoc, List.append_assoc]
  congr 2
  rw [List.drop_append, List.drop_of_length_le (by simp)]
  simp

theorem loop_drawn {read : Sys} (hok : read.Ok) (hnf : NoFail read) (num : W) (fuel : ℕ)
    (chunks : List (List Byte)) (l : W) (hl : l.toNat = chunks.flatten.length)
    (hle : chunks.flatten.length ≤ num.toNat)
    (hc : ∀ i (h : i < chunks.length),
      read i (num.toNat - (chunks.take i).flatten.length) = some chunks[i])
    {res : Buffer} (hr : loop read num fuel chunks.length
      (chunks.flatten.map some ++ List.replicate (num.toNat - chunks.flatten.length) none) l =
        some res) :
    ∃ b, res = b.map some ∧ Drawn read num.toNat b := by
  induction fuel generalizing chunks l with
  | zero => simp [loop] at hr
  | succ fuel ih =>
    rw [loop] at hr
    rw [sub_toNat (by omega), hl] at hr
    cases hrd : read chunks.length (num.toNat - chunks.flatten.length) with
    | none => exact absurd hrd (hnf _ _)
    | some b =>
      simp only [hrd] at hr
      have hb := hok _ _ _ hrd
      have hn : (l + BitVec.ofNat 64 b.length).toNat = l.toNat + b.length :=
        add_toNat (n := num) (by omega)
      have hfl : (chunks ++ [b]).flatten = chunks.flatten ++ b := by simp
      have hbuf : write (chunks.flatten.map some ++
          List.replicate (num.toNat - chunks.flatten.length) none) chunks.flatten.length b =
          (chunks ++ [b]).flatten.map some ++
            List.replicate (num.toNat - (chunks ++ [b]).flatten.length) none := by
        rw [write_end, hfl, List.length_append, Nat.sub_sub]
      have hc' : ∀ i (h : i < (chunks ++ [b]).length),
          read i (num.toNat - ((chunks ++ [b]).take i).flatten.length) =
            some (chunks ++ [b])[i] := by
        intro i hi
        rw [List.length_append, List.length_singleton] at hi
        by_cases h : i < chunks.length
        · rw [List.take_append_of_le_length (by omega), List.getElem_append_left h]
          exact hc i h
        · have : i = chunks.length := by omega
          subst this
          rw [List.take_left' rfl, List.getElem_append_right (by omega)]
          simpa using hrd
      have hl' : (l + BitVec.ofNat 64 b.length).toNat = (chunks ++ [b]).flatten.length := by
        rw [hn, hfl, List.length_append, hl]
      have hle' : (chunks ++ [b]).flatten.length ≤ num.toNat := by
        rw [hfl, List.length_append]; omega
      rw [hbuf] at hr
      split at hr
      · have := ih (chunks ++ [b]) _ hl' hle' hc'
        rw [List.length_append, List.length_singleton] at this
        exact this hr
      · rename_i hge
        rw [BitVec.lt_def, hl'] at hge
        have he : (chunks ++ [b]).flatten.length = num.toNat := by omega
        cases hr
        rw [he, Nat.sub_self, List.replicate_zero, List.append_nil]
        exact ⟨_, rfl, he, _, rfl, hc'⟩

theorem fill_some (old b : List Byte) (h : old.length = b.length) : fill old (b.map some) = b := by
  induction old generalizing b with
  | nil => cases b with
    | nil => rfl
    | cons => simp at h
  | cons x xs ih => cases b with
    | nil => simp at h
    | cons y ys =>
      have := ih ys (by simpa using h)
      simp only [fill] at this
      simp [fill, this]

theorem fill_none (old : List Byte) : fill old (List.replicate old.length none) = old := by
  induction old with
  | nil => rfl
  | cons x xs ih =>
    simp only [fill] at ih
    simp [fill, List.replicate_succ, ih]

/-! ## The bytes -/

theorem toNat_len {old : List Byte} (h : old.length < 2 ^ 64) :
    (BitVec.ofNat 64 old.length).toNat = old.length := by
  rw [BitVec.toNat_ofNat, Nat.mod_eq_of_lt h]

theorem bytes_drawn {read : Sys} (hok : read.Ok) (hnf : NoFail read) {fuel : ℕ} {old res : List Byte}
    (hl : old.length < 2 ^ 64) (h : random_bytes fuel read old = some res) :
    Drawn read old.length res := by
  rw [random_bytes, Option.map_eq_some_iff] at h
  obtain ⟨buf, h1, h2⟩ := h
  rw [prgn_random_bytes] at h1
  obtain ⟨b, e, hd⟩ := loop_drawn hok hnf _ fuel [] 0 rfl (by simp) (by simp) (res := buf) (by
    simpa only [List.flatten_nil, List.map_nil, List.nil_append, List.length_nil, Nat.sub_zero]
      using h1)
  rw [toNat_len hl] at hd
  rw [e, fill_some _ _ hd.1.symm] at h2
  rwa [← h2]

/-- C85, what is asked of the generator: the call returns within `n` reads when every read gives at
least one byte. -/
theorem bytes_return {read : Sys} (hok : read.Ok)
    (hpos : ∀ k n, 0 < n → ∃ b, read k n = some b ∧ b ≠ []) (old : List Byte)
    (hl : old.length < 2 ^ 64) (h0 : old.length ≠ 0) :
    ∃ res, random_bytes old.length read old = some res := by
  obtain ⟨b, h⟩ := C50_returns read hok hpos (BitVec.ofNat 64 old.length) (by
    intro h
    have := congrArg BitVec.toNat h
    rw [toNat_len hl] at this
    exact h0 this)
  rw [toNat_len hl] at h
  exact ⟨_, by rw [random_bytes, h]; rfl⟩

theorem bytes_fresh {read : Sys} (hok : read.Ok) (hiso : Isolated read) (fuel : ℕ)
    (old old' : List Byte) (hl : old.length < 2 ^ 64) (he : old.length = old'.length) :
    random_bytes fuel read old = random_bytes fuel read old' := by
  rw [random_bytes, random_bytes, ← he]
  cases hp : prgn_random_bytes read (BitVec.ofNat 64 old.length) fuel with
  | none => rfl
  | some buf =>
    obtain ⟨h1, h2⟩ := C50_filled_partial read hok hiso _ fuel buf hp
    rw [toNat_len hl] at h1 h2
    obtain ⟨b, hb⟩ : ∃ b : List Byte, buf = b.map some := by
      refine ⟨buf.map (·.getD 0#8), List.ext_getElem? fun i => ?_⟩
      by_cases hi : i < old.length
      · obtain ⟨b, _, _, _, e, _⟩ := h2 i hi
        simp [e]
      · rw [List.getElem?_eq_none (by omega), List.getElem?_eq_none (by simp; omega)]
    rw [hb, List.length_map] at h1
    rw [Option.map_some, Option.map_some, hb, fill_some _ _ h1.symm, fill_some _ _ (by omega)]

theorem bytes_unwritten {read : Sys} (h : ∀ n, read 0 n = none) (fuel : ℕ) (old : List Byte)
    (hl : old.length < 2 ^ 64) : random_bytes (fuel + 1) read old = some old := by
  rw [random_bytes, C50_error_returns_unwritten read _ fuel h, toNat_len hl, Option.map_some,
    fill_none]

/-! ## Keys -/

theorem key_eq (n fuel : ℕ) (read : Sys) (key : List Byte) (h : key.length = n) :
    (random_bytes fuel read (key.take n)).map (· ++ key.drop n) = random_bytes fuel read key := by
  rw [List.take_of_length_le h.le, List.drop_of_length_le h.le]
  simp

/-- C85 for keys: when no call of `read` fails, a random key is exactly the bytes that the system
returned, all 32, 56, 32 or 57 of them, in the order in which they were returned.  Missing: the
case that a call fails (`C85_keys_wrong`). -/
theorem C85_keys_partial (read : Sys) (hok : read.Ok) (hnf : NoFail read) (fuel : ℕ)
    (key res : List Byte) :
    (key.length = 32 → randX25519_Key fuel read key = some res → Drawn read 32 res) ∧
    (key.length = 56 → randX448_Key fuel read key = some res → Drawn read 56 res) ∧
    (key.length = 32 → randEd25519_Key fuel read key = some res → Drawn read 32 res) ∧
    (key.length = 57 → randEd448_Key fuel read key = some res → Drawn read 57 res) := by
  refine ⟨fun h e => ?_, fun h e => ?_, fun h e => ?_, fun h e => ?_⟩
  · rw [randX25519_Key, key_eq _ _ _ _ h] at e
    exact h ▸ bytes_drawn hok hnf (by omega) e
  · rw [randX448_Key, key_eq _ _ _ _ h] at e
    exact h ▸ bytes_drawn hok hnf (by omega) e
  · rw [randEd25519_Key, key_eq _ _ _ _ h] at e
    exact h ▸ bytes_drawn hok hnf (by omega) e
  · rw [randEd448_Key, key_eq _ _ _ _ h] at e
    exact h ▸ bytes_drawn hok hnf (by omega) e

/-- C85 fails when the device cannot be opened: every function returns, and the "random" key is
what the buffer held before. -/
theorem C85_keys_wrong (read : Sys) (h : ∀ n, read 0 n = none) (fuel : ℕ) (key : List Byte) :
    (key.length = 32 → randX25519_Key (fuel + 1) read key = some key) ∧
    (key.length = 56 → randX448_Key (fuel + 1) read key = some key) ∧
    (key.length = 32 → randEd25519_Key (fuel + 1) read key = some key) ∧
    (key.length = 57 → randEd448_Key (fuel + 1) read key = some key) := by
  refine ⟨fun e => ?_, fun e => ?_, fun e => ?_, fun e => ?_⟩
  · rw [randX25519_Key, key_eq _ _ _ _ e]; exact bytes_unwritten h fuel key (by omega)
  · rw [randX448_Key, key_eq _ _ _ _ e]; exact bytes_unwritten h fuel key (by omega)
  · rw [randEd25519_Key, key_eq _ _ _ _ e]; exact bytes_unwritten h fuel key (by omega)
  · rw [randEd448_Key, key_eq _ _ _ _ e]; exact bytes_unwritten h fuel key (by omega)

/-! ## Elements -/

theorem one_25519 {read : Sys} (hok : read.Ok) (hnf : NoFail read) {fuel : ℕ} {s : List Byte}
    (hs : s.length = 32) {e : Fp25519.Elt5 U} (h : rand25519_1w fuel read s = some e) :
    ∃ b, Drawn read 32 b ∧ e.limbs.Le Fp25519.canonB ∧ e.limbs.toFp = (leNat b : Fp25519.Fp) := by
  rw [rand25519_1w, Option.map_eq_some_iff] at h
  obtain ⟨b, h1, rfl⟩ := h
  have hd := bytes_drawn hok hnf (by omega) h1
  rw [hs] at hd
  exact ⟨b, hd, (Fp25519.unser_spec b hd.1).1, Fp25519.unser_toFp b hd.1⟩

theorem one_448 {read : Sys} (hok : read.Ok) (hnf : NoFail read) {fuel : ℕ} {s : List Byte}
    (hs : s.length = 56) {e : Fp448.Elt8 U} (h : rand448_1w fuel read s = some e) :
    ∃ b, Drawn read 56 b ∧ e.limbs.Le Fp448.canonB ∧ e.limbs.toFp = (leNat b : Fp448.Fp) := by
  rw [rand448_1w, Option.map_eq_some_iff] at h
  obtain ⟨b, h1, rfl⟩ := h
  have hd := bytes_drawn hok hnf (by omega) h1
  rw [hs] at hd
  exact ⟨b, hd, (Fp448.unser_spec b hd.1).1, Fp448.unser_toFp b hd.1⟩

/-- C85 for Fp25519: when no call fails, every lane of a random element is the residue of 32 bytes
drawn from the system, every lane from calls of its own, and its limbs are in range.  The old
contents of the element and of the local buffers do not matter.  Missing: the case that a call
fails (`C85_elements_wrong`). -/
theorem C85_elements_25519_partial (read : ℕ → Sys) (hok : ∀ i, (read i).Ok)
    (hnf : ∀ i, NoFail (read i)) (fuel : ℕ) (s : ℕ → List Byte) (hs : ∀ i, (s i).length = 32) :
    (∀ a e, rand25519_full fuel (read 0) a = some e →
      ∃ b, Drawn (read 0) 32 b ∧ e.toFp = (leNat b : Fp25519.Fp)) ∧
    (∀ e, rand25519_1w fuel (read 0) (s 0) = some e →
      ∃ b, Drawn (read 0) 32 b ∧ e.Le Fp25519.canonB ∧ e.toFp = (leNat b : Fp25519.Fp)) ∧
    (∀ e, rand25519_2w fuel (read 0) (read 1) (s 0) (s 1) = some e → ∃ b0 b1,
      Drawn (read 0) 32 b0 ∧ Drawn (read 1) 32 b1 ∧
      (e.lo.Le Fp25519.canonB ∧ e.lo.toFp = (leNat b0 : Fp25519.Fp)) ∧
      (e.hi.Le Fp25519.canonB ∧ e.hi.toFp = (leNat b1 : Fp25519.Fp))) ∧
    (∀ e, rand25519_4w fuel (read 0) (read 1) (read 2) (read 3) (s 0) (s 1) (s 2) (s 3) = some e →
      ∀ i < 4, ∃ b, Drawn (read i) 32 b ∧ (e.lane i).Le Fp25519.canonB ∧
        (e.lane i).toFp = (leNat b : Fp25519.Fp)) := by
  refine ⟨fun a e h => ?_, fun e h => one_25519 (hok 0) (hnf 0) (hs 0) h, fun e h => ?_,
    fun e h => ?_⟩
  · rw [rand25519_full, Option.map_eq_some_iff] at h
    obtain ⟨b, h1, rfl⟩ := h
    have hl : a.toBytes.length = 32 := a.toBytes_length
    have hd := bytes_drawn (hok 0) (hnf 0) (by omega) h1
    rw [hl] at hd
    refine ⟨b, hd, ?_⟩
    rw [Fp25519.F4.toFp, Fp25519.F4.ofBytes_val hd.1]
    norm_cast
  · rw [rand25519_2w, Option.bind_eq_some_iff] at h
    obtain ⟨a0, h0, h⟩ := h
    rw [Option.map_eq_some_iff] at h
    obtain ⟨a1, h1, rfl⟩ := h
    obtain ⟨b0, d0, l0, v0⟩ := one_25519 (hok 0) (hnf 0) (hs 0) h0
    obtain ⟨b1, d1, l1, v1⟩ := one_25519 (hok 1) (hnf 1) (hs 1) h1
    exact ⟨b0, b1, d0, d1, ⟨l0, v0⟩, ⟨l1, v1⟩⟩
  · rw [rand25519_4w, Option.bind_eq_some_iff] at h
    obtain ⟨a0, h0, h⟩ := h
    rw [Option.bind_eq_some_iff] at h
    obtain ⟨a1, h1, h⟩ := h
    rw [Option.bind_eq_some_iff] at h
    obtain ⟨a2, h2, h⟩ := h
    rw [Option.map_eq_some_iff] at h
    obtain ⟨a3, h3, rfl⟩ := h
    obtain ⟨k0, k1, k2, k3⟩ := Fp25519.R4_zip_lanes a0 a1 a2 a3
    intro i hi
    interval_cases i
    · rw [k0]; exact one_25519 (hok 0) (hnf 0) (hs 0) h0
    · rw [k1]; exact one_25519 (hok 1) (hnf 1) (hs 1) h1
    · rw [k2]; exact one_25519 (hok 2) (hnf 2) (hs 2) h2
    · rw [k3]; exact one_25519 (hok 3) (hnf 3) (hs 3) h3

/-- C85 for Fp448, in the same way with 56 bytes. -/
theorem C85_elements_448_partial (read : ℕ → Sys) (hok : ∀ i, (read i).Ok)
    (hnf : ∀ i, NoFail (read i)) (fuel : ℕ) (s : ℕ → List Byte) (hs : ∀ i, (s i).length = 56) :
    (∀ a e, rand448_full fuel (read 0) a = some e →
      ∃ b, Drawn (read 0) 56 b ∧ e.toFp = (leNat b : Fp448.Fp)) ∧
    (∀ e, rand448_1w fuel (read 0) (s 0) = some e →
      ∃ b, Drawn (read 0) 56 b ∧ e.Le Fp448.canonB ∧ e.toFp = (leNat b : Fp448.Fp)) ∧
    (∀ e, rand448_2w fuel (read 0) (read 1) (s 0) (s 1) = some e → ∃ b0 b1,
      Drawn (read 0) 56 b0 ∧ Drawn (read 1) 56 b1 ∧
      (e.lo.Le Fp448.canonB ∧ e.lo.toFp = (leNat b0 : Fp448.Fp)) ∧
      (e.hi.Le Fp448.canonB ∧ e.hi.toFp = (leNat b1 : Fp448.Fp))) ∧
    (∀ e, rand448_4w fuel (read 0) (read 1) (read 2) (read 3) (s 0) (s 1) (s 2) (s 3) = some e →
      ∀ i < 4, ∃ b, Drawn (read i) 56 b ∧ (e.lane i).Le Fp448.canonB ∧
        (e.lane i).toFp = (leNat b : Fp448.Fp)) := by
  refine ⟨fun a e h => ?_, fun e h => one_448 (hok 0) (hnf 0) (hs 0) h, fun e h => ?_,
    fun e h => ?_⟩
  · rw [rand448_full, Option.map_eq_some_iff] at h
    obtain ⟨b, h1, rfl⟩ := h
    have hl : a.toBytes.length = 56 := a.toBytes_length
    have hd := bytes_drawn (hok 0) (hnf 0) (by omega) h1
    rw [hl] at hd
    refine ⟨b, hd, ?_⟩
    rw [Fp448.F7.toFp, Fp448.F7.ofBytes_val hd.1]
    norm_cast
  · rw [rand448_2w, Option.bind_eq_some_iff] at h
    obtain ⟨a0, h0, h⟩ := h
    rw [Option.map_eq_some_iff] at h
    obtain ⟨a1, h1, rfl⟩ := h
    obtain ⟨b0, d0, l0, v0⟩ := one_448 (hok 0) (hnf 0) (hs 0) h0
    obtain ⟨b1, d1, l1, v1⟩ := one_448 (hok 1) (hnf 1) (hs 1) h1
    exact ⟨b0, b1, d0, d1, ⟨l0, v0⟩, ⟨l1, v1⟩⟩
  · rw [rand448_4w, Option.bind_eq_some_iff] at h
    obtain ⟨a0, h0, h⟩ := h
    rw [Option.bind_eq_some_iff] at h
    obtain ⟨a1, h1, h⟩ := h
    rw [Option.bind_eq_some_iff] at h
    obtain ⟨a2, h2, h⟩ := h
    rw [Option.map_eq_some_iff] at h
    obtain ⟨a3, h3, rfl⟩ := h
    obtain ⟨k0, k1, k2, k3⟩ := Fp448.R4_zip_lanes a0 a1 a2 a3
    intro i hi
    interval_cases i
    · rw [k0]; exact one_448 (hok 0) (hnf 0) (hs 0) h0
    · rw [k1]; exact one_448 (hok 1) (hnf 1) (hs 1) h1
    · rw [k2]; exact one_448 (hok 2) (hnf 2) (hs 2) h2
    · rw [k3]; exact one_448 (hok 3) (hnf 3) (hs 3) h3

/-! ## Return, and old contents -/

/-- C85: all these functions return when every call of `read` gives at least one byte. -/
theorem C85_returns (read : ℕ → Sys) (hok : ∀ i, (read i).Ok)
    (hpos : ∀ i k n, 0 < n → ∃ b, read i k n = some b ∧ b ≠ []) (s t : ℕ → List Byte)
    (hs : ∀ i, (s i).length = 32) (ht : ∀ i, (t i).length = 56) (a : Fp25519.F4) (c : Fp448.F7) :
    (∃ e, rand25519_full 32 (read 0) a = some e) ∧
    (∃ e, rand25519_2w 32 (read 0) (read 1) (s 0) (s 1) = some e) ∧
    (∃ e, rand25519_4w 32 (read 0) (read 1) (read 2) (read 3) (s 0) (s 1) (s 2) (s 3) = some e) ∧
    (∃ e, rand448_full 56 (read 0) c = some e) ∧
    (∃ e, rand448_2w 56 (read 0) (read 1) (t 0) (t 1) = some e) ∧
    (∃ e, rand448_4w 56 (read 0) (read 1) (read 2) (read 3) (t 0) (t 1) (t 2) (t 3) = some e) := by
  have g : ∀ i, ∃ e, rand25519_1w 32 (read i) (s i) = some e := fun i => by
    obtain ⟨r, h⟩ := bytes_return (hok i) (hpos i) (s i) (by have := hs i; omega)
      (by have := hs i; omega)
    rw [hs i] at h
    exact ⟨_, by rw [rand25519_1w, h]; rfl⟩
  have g' : ∀ i, ∃ e, rand448_1w 56 (read i) (t i) = some e := fun i => by
    obtain ⟨r, h⟩ := bytes_return (hok i) (hpos i) (t i) (by have := ht i; omega)
      (by have := ht i; omega)
    rw [ht i] at h
    exact ⟨_, by rw [rand448_1w, h]; rfl⟩
  obtain ⟨e0, h0⟩ := g 0; obtain ⟨e1, h1⟩ := g 1; obtain ⟨e2, h2⟩ := g 2; obtain ⟨e3, h3⟩ := g 3
  obtain ⟨f0, k0⟩ := g' 0; obtain ⟨f1, k1⟩ := g' 1; obtain ⟨f2, k2⟩ := g' 2
  obtain ⟨f3, k3⟩ := g' 3
  have la : a.toBytes.length = 32 := a.toBytes_length
  have lc : c.toBytes.length = 56 := c.toBytes_length
  refine ⟨?_, ⟨_, by rw [rand25519_2w, h0, h1]; rfl⟩,
    ⟨_, by rw [rand25519_4w, h0, h1, h2, h3]; rfl⟩, ?_, ⟨_, by rw [rand448_2w, k0, k1]; rfl⟩,
    ⟨_, by rw [rand448_4w, k0, k1, k2, k3]; rfl⟩⟩
  · obtain ⟨r, h⟩ := bytes_return (hok 0) (hpos 0) a.toBytes (by omega) (by omega)
    rw [la] at h
    exact ⟨_, by rw [rand25519_full, h]; rfl⟩
  · obtain ⟨r, h⟩ := bytes_return (hok 0) (hpos 0) c.toBytes (by omega) (by omega)
    rw [lc] at h
    exact ⟨_, by rw [rand448_full, h]; rfl⟩

/-- C85: as long as the first call does not fail and no two consecutive calls fail, nothing of what
the buffers held before shows in a random key or element. -/
theorem C85_fresh (read : Sys) (hok : read.Ok) (hiso : Isolated read) (fuel : ℕ)
    (s s' : List Byte) (a a' : Fp25519.F4) (c c' : Fp448.F7) :
    (s.length = 32 → s'.length = 32 →
      randX25519_Key fuel read s = randX25519_Key fuel read s' ∧
      randEd25519_Key fuel read s = randEd25519_Key fuel read s' ∧
      rand25519_1w fuel read s = rand25519_1w fuel read s') ∧
    (s.length = 56 → s'.length = 56 →
      randX448_Key fuel read s = randX448_Key fuel read s' ∧
      rand448_1w fuel read s = rand448_1w fuel read s') ∧
    (s.length = 57 → s'.length = 57 → randEd448_Key fuel read s = randEd448_Key fuel read s') ∧
    rand25519_full fuel read a = rand25519_full fuel read a' ∧
    rand448_full fuel read c = rand448_full fuel read c' := by
  have g : ∀ n, n < 2 ^ 64 → ∀ x y : List Byte, x.length = n → y.length = n →
      random_bytes fuel read x = random_bytes fuel read y := fun n hn x y hx hy =>
    bytes_fresh hok hiso fuel x y (by omega) (by omega)
  refine ⟨fun h h' => ⟨?_, ?_, ?_⟩, fun h h' => ⟨?_, ?_⟩, fun h h' => ?_, ?_, ?_⟩
  · rw [randX25519_Key, randX25519_Key, key_eq _ _ _ _ h, key_eq _ _ _ _ h']
    exact g 32 (by norm_num) _ _ h h'
  · rw [randEd25519_Key, randEd25519_Key, key_eq _ _ _ _ h, key_eq _ _ _ _ h']
    exact g 32 (by norm_num) _ _ h h'
  · rw [rand25519_1w, rand25519_1w, g 32 (by norm_num) _ _ h h']
  · rw [randX448_Key, randX448_Key, key_eq _ _ _ _ h, key_eq _ _ _ _ h']
    exact g 56 (by norm_num) _ _ h h'
  · rw [rand448_1w, rand448_1w, g 56 (by norm_num) _ _ h h']
  · rw [randEd448_Key, randEd448_Key, key_eq _ _ _ _ h, key_eq _ _ _ _ h']
    exact g 57 (by norm_num) _ _ h h'
  · rw [rand25519_full, rand25519_full, g 32 (by norm_num) _ _ a.toBytes_length a'.toBytes_length]
  · rw [rand448_full, rand448_full, g 56 (by norm_num) _ _ c.toBytes_length c'.toBytes_length]

/-- C85 fails when the device cannot be opened: the functions return, the full-radix elements are
what they were before, and the lanes of the others are decoded from what the local buffers
happened to hold. -/
theorem C85_elements_wrong (read : Sys) (h : ∀ n, read 0 n = none) (fuel : ℕ) (a : Fp25519.F4)
    (c : Fp448.F7) (s0 s1 s2 s3 t0 t1 t2 t3 : List Byte)
    (hs : s0.length = 32 ∧ s1.length = 32 ∧ s2.length = 32 ∧ s3.length = 32)
    (ht : t0.length = 56 ∧ t1.length = 56 ∧ t2.length = 56 ∧ t3.length = 56) :
    rand25519_full (fuel + 1) read a = some a ∧
    rand25519_1w (fuel + 1) read s0 = some (Fp25519.R1.unser s0) ∧
    rand25519_2w (fuel + 1) read read s0 s1 = some (Fp25519.R2.unser (s0 ++ s1)) ∧
    rand25519_4w (fuel + 1) read read read read s0 s1 s2 s3 =
      some (Fp25519.R4.unser (s0 ++ s1 ++ s2 ++ s3)) ∧
    rand448_full (fuel + 1) read c = some c ∧
    rand448_1w (fuel + 1) read t0 = some (Fp448.R1.unser t0) ∧
    rand448_2w (fuel + 1) read read t0 t1 = some (Fp448.R2.unser (t0 ++ t1)) ∧
    rand448_4w (fuel + 1) read read read read t0 t1 t2 t3 =
      some (Fp448.R4.unser (t0 ++ t1 ++ t2 ++ t3)) := by
  have g : ∀ x : List Byte, x.length < 2 ^ 64 → random_bytes (fuel + 1) read x = some x :=
    fun x hx => bytes_unwritten h fuel x hx
  obtain ⟨hs0, hs1, hs2, hs3⟩ := hs
  obtain ⟨ht0, ht1, ht2, ht3⟩ := ht
  have la : a.toBytes.length = 32 := a.toBytes_length
  have lc : c.toBytes.length = 56 := c.toBytes_length
  have e : ∀ x : List Byte, x.length = 32 →
      rand25519_1w (fuel + 1) read x = some (Fp25519.R1.unser x) := fun x hx => by
    rw [rand25519_1w, g x (by omega)]; rfl
  have f : ∀ x : List Byte, x.length = 56 →
      rand448_1w (fuel + 1) read x = some (Fp448.R1.unser x) := fun x hx => by
    rw [rand448_1w, g x (by omega)]; rfl
  refine ⟨?_, e s0 hs0, ?_, ?_, ?_, f t0 ht0, ?_, ?_⟩
  · rw [rand25519_full, g _ (by omega), Option.map_some, Fp25519.F4.ofBytes_toBytes]
  · rw [rand25519_2w, e s0 hs0, e s1 hs1, Fp25519.R2.unser, List.take_left' hs0,
      List.drop_left' hs0, Option.bind_some, Option.map_some]
  · rw [rand25519_4w, e s0 hs0, e s1 hs1, e s2 hs2, e s3 hs3, Fp25519.R4.unser]
    have u0 : (s0 ++ s1 ++ s2 ++ s3).take 32 = s0 := by
      rw [List.append_assoc, List.append_assoc, List.take_left' hs0]
    have u1 : ((s0 ++ s1 ++ s2 ++ s3).drop 32).take 32 = s1 := by
      rw [List.append_assoc, List.append_assoc, List.drop_left' hs0, List.take_left' hs1]
    have u2 : ((s0 ++ s1 ++ s2 ++ s3).drop 64).take 32 = s2 := by
      rw [List.append_assoc, List.drop_left' (by rw [List.length_append]; omega),
        List.take_left' hs2]
    have u3 : ((s0 ++ s1 ++ s2 ++ s3).drop 96).take 32 = s3 := by
      rw [List.drop_left' (by rw [List.length_append, List.length_append]; omega),
        List.take_of_length_le hs3.le]
    rw [u0, u1, u2, u3, Option.bind_some, Option.bind_some, Option.bind_some, Option.map_some]
  · rw [rand448_full, g _ (by omega), Option.map_some]
    have : Fp448.F7.ofBytes c.toBytes = c :=
      Fp448.F7.val_inj (by rw [Fp448.F7.ofBytes_val lc, Fp448.F7.leNat_toBytes])
    rw [this]
  · rw [rand448_2w, f t0 ht0, f t1 ht1, Fp448.R2.unser, List.take_left' ht0,
      List.drop_left' ht0, List.take_of_length_le ht1.le, Option.bind_some, Option.map_some]
  · rw [rand448_4w, f t0 ht0, f t1 ht1, f t2 ht2, f t3 ht3, Fp448.R4.unser]
    have u0 : (t0 ++ t1 ++ t2 ++ t3).take 56 = t0 := by
      rw [List.append_assoc, List.append_assoc, List.take_left' ht0]
    have u1 : ((t0 ++ t1 ++ t2 ++ t3).drop 56).take 56 = t1 := by
      rw [List.append_assoc, List.append_assoc, List.drop_left' ht0, List.take_left' ht1]
    have u2 : ((t0 ++ t1 ++ t2 ++ t3).drop 112).take 56 = t2 := by
      rw [List.append_assoc, List.drop_left' (by rw [List.length_append]; omega),
        List.take_left' ht2]
    have u3 : ((t0 ++ t1 ++ t2 ++ t3).drop 168).take 56 = t3 := by
      rw [List.drop_left' (by rw [List.length_append, List.length_append]; omega),
        List.take_of_length_le ht3.le]
    rw [u0, u1, u2, u3, Option.bind_some, Option.bind_some, Option.bind_some, Option.map_some]

/-! ## Evenness -/

theorem ncard_residue (n p v : ℕ) (hp : 0 < p) (hv : v < p) :
    {b : List Byte | b.length = n ∧ leNat b % p = v}.ncard =
      256 ^ n / p + if v < 256 ^ n % p then 1 else 0 := by
  have h1 : {b : List Byte | b.length = n ∧ leNat b % p = v} =
      leBytes n '' ((Finset.range (256 ^ n)).filter (· ≡ v [MOD p]) : Finset ℕ) := by
    ext b
    simp only [Set.mem_ofPred_eq, Set.mem_image, Finset.mem_coe, Finset.mem_filter,
      Finset.mem_range]
    constructor
    · rintro ⟨h1, h2⟩
      refine ⟨leNat b, ⟨h1 ▸ leNat_lt b, h2.trans (Nat.mod_eq_of_lt hv).symm⟩, ?_⟩
      rw [← h1]; exact leBytes_leNat b
    · rintro ⟨x, ⟨h1, h2⟩, rfl⟩
      rw [leBytes_length, leNat_leBytes, Nat.mod_eq_of_lt h1]
      exact ⟨rfl, Eq.trans h2 (Nat.mod_eq_of_lt hv)⟩
  rw [h1, Set.InjOn.ncard_image, Set.ncard_coe_finset, ← Nat.count_eq_card_filter_range,
    Nat.count_modEq_card _ hp, Nat.mod_eq_of_lt hv]
  intro x hx y hy e
  simp only [Finset.mem_coe, Finset.mem_filter, Finset.mem_range] at hx hy
  have := congrArg leNat e
  rwa [leNat_leBytes, leNat_leBytes, Nat.mod_eq_of_lt hx.1, Nat.mod_eq_of_lt hy.1] at this

/-- C85: of the 2^256 strings of 32 bytes, two give each residue, and three the residues 0 to 37:
uniform bytes give every element with almost the same probability.  The same strings stand for a
residue in the full-radix layout. -/
theorem C85_even_25519 (x : Fp25519.Fp) :
    {b : List Byte | b.length = 32 ∧ (Fp25519.R1.unser b).toFp = x}.ncard =
      (if Fp25519.canon x < 38 then 3 else 2) ∧
    {b : List Byte | b.length = 32 ∧ (Fp25519.F4.ofBytes b).toFp = x}.ncard =
      (if Fp25519.canon x < 38 then 3 else 2) := by
  have key : ∀ b : List Byte, ((leNat b : Fp25519.Fp) = x) ↔ leNat b % Fp25519.P = x.val := by
    intro b
    rw [← ZMod.val_natCast]
    exact ⟨fun h => by rw [h], fun h => ZMod.val_injective _ h⟩
  have e1 : {b : List Byte | b.length = 32 ∧ (Fp25519.R1.unser b).toFp = x} =
      {b : List Byte | b.length = 32 ∧ leNat b % Fp25519.P = x.val} := by
    ext b
    simp only [Set.mem_ofPred_eq]
    exact and_congr_right fun h => by rw [Fp25519.unser_toFp b h, key]
  have e2 : {b : List Byte | b.length = 32 ∧ (Fp25519.F4.ofBytes b).toFp = x} =
      {b : List Byte | b.length = 32 ∧ leNat b % Fp25519.P = x.val} := by
    ext b
    simp only [Set.mem_ofPred_eq]
    refine and_congr_right fun h => ?_
    rw [Fp25519.F4.toFp, Fp25519.F4.ofBytes_val h, Int.cast_natCast, key]
  have hq : 256 ^ 32 / Fp25519.P = 2 ∧ 256 ^ 32 % Fp25519.P = 38 := by decide +kernel
  rw [e1, e2, ncard_residue _ _ _ (by decide) (ZMod.val_lt x), hq.1, hq.2, Fp25519.canon]
  constructor <;> split <;> rfl

/-- C85: of the 2^448 strings of 56 bytes, one gives each residue, and two the residues up to
2^224. -/
theorem C85_even_448 (x : Fp448.Fp) :
    {b : List Byte | b.length = 56 ∧ (Fp448.R1.unser b).toFp = x}.ncard =
      (if Fp448.canon x ≤ 2 ^ 224 then 2 else 1) ∧
    {b : List Byte | b.length = 56 ∧ (Fp448.F7.ofBytes b).toFp = x}.ncard =
      (if Fp448.canon x ≤ 2 ^ 224 then 2 else 1) := by
  have key : ∀ b : List Byte, ((leNat b : Fp448.Fp) = x) ↔ leNat b % Fp448.P = x.val := by
    intro b
    rw [← ZMod.val_natCast]
    exact ⟨fun h => by rw [h], fun h => ZMod.val_injective _ h⟩
  have e1 : {b : List Byte | b.length = 56 ∧ (Fp448.R1.unser b).toFp = x} =
      {b : List Byte | b.length = 56 ∧ leNat b % Fp448.P = x.val} := by
    ext b
    simp only [Set.mem_ofPred_eq]
    exact and_congr_right fun h => by rw [Fp448.unser_toFp b h, key]
  have e2 : {b : List Byte | b.length = 56 ∧ (Fp448.F7.ofBytes b).toFp = x} =
      {b : List Byte | b.length = 56 ∧ leNat b % Fp448.P = x.val} := by
    ext b
    simp only [Set.mem_ofPred_eq]
    refine and_congr_right fun h => ?_
    rw [Fp448.F7.toFp, Fp448.F7.ofBytes_val h, Int.cast_natCast, key]
  have hq : 256 ^ 56 / Fp448.P = 1 ∧ 256 ^ 56 % Fp448.P = 2 ^ 224 + 1 := by decide +kernel
  rw [e1, e2, ncard_residue _ _ _ (by decide) (ZMod.val_lt x), hq.1, hq.2, Fp448.canon]
  simp only [Nat.lt_succ_iff]
  constructor <;> split <;> rfl

/-- A system that gives at most seven bytes at a time. -/
def sevens : Sys := fun k n => some (List.replicate (min n 7) (BitVec.ofNat 8 (k + 1)))

example : sevens.Ok ∧ NoFail sevens ∧
    randX25519_Key 32 sevens (List.replicate 32 0xaa#8) =
      some (List.replicate 7 1#8 ++ List.replicate 7 2#8 ++ List.replicate 7 3#8 ++
        List.replicate 7 4#8 ++ List.replicate 4 5#8) := by
  refine ⟨fun k n b h => ?_, fun k n h => ?_, by decide +kernel⟩
  · cases h; simp
  · cases h

end Verif.Prng
