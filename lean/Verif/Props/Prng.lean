import Verif.Prng.Model

/-!
# C50: the source of random bytes
-/

namespace Verif.Prng

/-- The bytes below `l` are written, and all bytes written come from the system. -/
structure Inv (P : Byte → Prop) (n : ℕ) (buf : Buffer) (l : ℕ) : Prop where
  len : buf.length = n
  le : l ≤ n
  below : ∀ i < l, ∃ b, buf[i]? = some (some b)
  from_sys : ∀ b, some b ∈ buf → P b

theorem write_inv {P : Byte → Prop} {n : ℕ} {buf : Buffer} {l : ℕ} {b : List Byte}
    (h : Inv P n buf l) (hb : l + b.length ≤ n) (hP : ∀ x ∈ b, P x) :
    Inv P n (write buf l b) (l + b.length) := by
  have hl : (buf.take l).length = l := by rw [List.length_take, h.len]; exact Nat.min_eq_left h.le
  refine ⟨?_, hb, ?_, ?_⟩
  · simp only [write, List.length_append, List.length_map, List.length_drop, hl, h.len]; omega
  · intro i hi
    rw [write, List.append_assoc]
    by_cases h1 : i < l
    · rw [List.getElem?_append_left (by omega), List.getElem?_take, if_pos h1]
      exact h.below i h1
    · rw [List.getElem?_append_right (by omega), hl, List.getElem?_append_left
        (by rw [List.length_map]; omega)]
      have hx : i - l < b.length := by omega
      exact ⟨b[i - l], by rw [List.getElem?_map, List.getElem?_eq_getElem hx]; rfl⟩
  · intro x hx
    rw [write, List.mem_append, List.mem_append] at hx
    rcases hx with (hx | hx) | hx
    · exact h.from_sys x (List.mem_of_mem_take hx)
    · rw [List.mem_map] at hx
      obtain ⟨y, hy, e⟩ := hx
      cases e
      exact hP _ hy
    · exact h.from_sys x (List.mem_of_mem_drop hx)

theorem Inv.mono {P : Byte → Prop} {n : ℕ} {buf : Buffer} {l l' : ℕ} (h : Inv P n buf l)
    (hl : l' ≤ l) : Inv P n buf l' :=
  ⟨h.len, hl.trans h.le, fun i hi => h.below i (by omega), h.from_sys⟩

theorem sub_toNat {n l : W} (h : l.toNat ≤ n.toNat) : (n - l).toNat = n.toNat - l.toNat := by
  rw [BitVec.toNat_sub]
  have := n.isLt
  omega

theorem add_toNat {n l : W} {k : ℕ} (h : l.toNat + k ≤ n.toNat) :
    (l + BitVec.ofNat 64 k).toNat = l.toNat + k := by
  have := n.isLt
  rw [BitVec.toNat_add, BitVec.toNat_ofNat]
  omega

theorem dec_toNat {l : W} (h : l.toNat ≠ 0) : (l + (-1#64)).toNat = l.toNat - 1 := by
  have := l.isLt
  have e : (-1#64).toNat = 2 ^ 64 - 1 := by decide
  rw [BitVec.toNat_add, e]
  omega

/-- Errors are isolated: the call before a failed one succeeded with at least one byte. -/
def Isolated (read : Sys) : Prop :=
  ∀ k n, read k n = none → k ≠ 0 ∧ ∀ n', 0 < n' → ∃ b, read (k - 1) n' = some b ∧ b ≠ []

theorem loop_filled {read : Sys} (hok : read.Ok) (hiso : Isolated read) (P : Byte → Prop)
    (hP : ∀ k n b, read k n = some b → ∀ x ∈ b, P x) (num : W) (fuel k : ℕ) {buf : Buffer} {l : W}
    (h : Inv P num.toNat buf l.toNat) (hk : k ≠ 0 → l.toNat < num.toNat)
    (hl : k ≠ 0 → (∀ n, 0 < n → ∃ b, read (k - 1) n = some b ∧ b ≠ []) → l.toNat ≠ 0)
    {res : Buffer} (hr : loop read num fuel k buf l = some res) :
    Inv P num.toNat res num.toNat := by
  induction fuel generalizing k buf l with
  | zero => simp [loop] at hr
  | succ fuel ih =>
    rw [loop] at hr
    have hle := h.le
    cases hrd : read k (num - l).toNat with
    | some b =>
      simp only [hrd] at hr
      have hb := hok _ _ _ hrd
      rw [sub_toNat hle] at hb
      have hi := write_inv h (b := b) (by omega) (hP _ _ _ hrd)
      have hn : (l + BitVec.ofNat 64 b.length).toNat = l.toNat + b.length :=
        add_toNat (n := num) (by omega)
      split at hr
      · rename_i hlt
        rw [BitVec.lt_def] at hlt
        refine ih (k + 1) (by rw [hn]; exact hi) (fun _ => hlt) (fun _ hs => ?_) hr
        rw [hn]
        by_cases h0 : l.toNat = 0
        · -- the call was asked for at least one byte
          have hpos : 0 < (num - l).toNat := by
            rw [sub_toNat hle]; omega
          obtain ⟨b', hb', hne⟩ := hs _ hpos
          rw [Nat.add_sub_cancel, hrd] at hb'
          cases hb'
          have := List.length_pos_of_ne_nil hne
          omega
        · omega
      · rename_i hge
        rw [BitVec.lt_def] at hge
        cases hr
        have : l.toNat + b.length = num.toNat := by omega
        rw [← this] at hi ⊢
        exact this ▸ hi
    | none =>
      simp only [hrd] at hr
      obtain ⟨hk0, hprev⟩ := hiso _ _ hrd
      have hl0 := hl hk0 hprev
      have hn := dec_toNat hl0
      have hlt : (l + (-1#64)) < num := by
        rw [BitVec.lt_def, hn]; have := hk hk0; omega
      rw [if_pos hlt] at hr
      refine ih (k + 1) (by rw [hn]; exact h.mono (by omega)) (fun _ => BitVec.lt_def.mp hlt)
        (fun _ hs => ?_) hr
      exfalso
      by_cases hp : 0 < (num - l).toNat
      · obtain ⟨b', hb', _⟩ := hs _ hp
        rw [Nat.add_sub_cancel, hrd] at hb'
        cases hb'
      · rw [sub_toNat hle] at hp
        have := hk hk0
        omega

/-- C50, as far as it holds: when the first call of `read` does not fail and no two consecutive
calls fail, the function returns only after every byte was written, and every byte comes from the
system, whatever the lengths of the reads.  Missing: the same when the first call fails, see
`C50_error_returns_unwritten`. -/
theorem C50_filled_partial (read : Sys) (hok : read.Ok) (hiso : Isolated read) (num : W) (fuel : ℕ)
    (res : Buffer) (hr : prgn_random_bytes read num fuel = some res) :
    res.length = num.toNat ∧ ∀ i < num.toNat, ∃ b k n bs,
      res[i]? = some (some b) ∧ read k n = some bs ∧ b ∈ bs := by
  have h := loop_filled hok hiso (fun b => ∃ k n bs, read k n = some bs ∧ b ∈ bs)
    (fun k n b hb x hx => ⟨k, n, b, hb, hx⟩) num fuel 0
    (buf := List.replicate num.toNat none) (l := 0)
    ⟨by simp, by simp, by simp, by intro b hb; simp [List.mem_replicate] at hb⟩ (by simp) (by simp)
    hr
  refine ⟨h.len, fun i hi => ?_⟩
  obtain ⟨b, hb⟩ := h.below i hi
  obtain ⟨k, n, bs, h1, h2⟩ := h.from_sys b (List.mem_of_getElem? hb)
  exact ⟨b, k, n, bs, hb, h1, h2⟩

/-- C50: when every call writes at least one byte, at most `num_bytes` calls are made. -/
theorem C50_returns (read : Sys) (hok : read.Ok)
    (hpos : ∀ k n, 0 < n → ∃ b, read k n = some b ∧ b ≠ []) (num : W) (h0 : num ≠ 0) :
    ∃ res, prgn_random_bytes read num num.toNat = some res := by
  have hgen : ∀ (fuel k : ℕ) (buf : Buffer) (l : W), l.toNat < num.toNat →
      num.toNat ≤ l.toNat + fuel → ∃ res, loop read num fuel k buf l = some res := by
    intro fuel
    induction fuel with
    | zero => intro k buf l h1 h2; omega
    | succ fuel ih =>
      intro k buf l h1 h2
      have hle : (num - l).toNat = num.toNat - l.toNat := sub_toNat (by omega)
      obtain ⟨b, hb, hne⟩ := hpos k (num - l).toNat (by omega)
      have hlen := List.length_pos_of_ne_nil hne
      have hmax := hok _ _ _ hb
      have hn : (l + BitVec.ofNat 64 b.length).toNat = l.toNat + b.length :=
        add_toNat (n := num) (by omega)
      rw [loop]
      simp only [hb]
      split
      · rename_i hlt
        rw [BitVec.lt_def] at hlt
        exact ih _ _ _ hlt (by omega)
      · exact ⟨_, rfl⟩
  have hz : num.toNat ≠ 0 := fun h => h0 (BitVec.eq_of_toNat_eq h)
  exact hgen _ _ _ _ (by simp; omega) (by simp)

/-- The claim fails when the first call of `read` fails, for instance because the device could not
be opened: the counter wraps, the loop ends, and no byte of the buffer was written. -/
theorem C50_error_returns_unwritten (read : Sys) (num : W) (fuel : ℕ)
    (h : ∀ n, read 0 n = none) :
    prgn_random_bytes read num (fuel + 1) = some (List.replicate num.toNat none) := by
  rw [prgn_random_bytes, loop]
  simp only [h]
  have : ¬ (0 + (-1#64) : W) < num := by
    rw [BitVec.lt_def]
    have e : (0 + (-1#64) : W).toNat = 2 ^ 64 - 1 := by decide
    have := num.isLt
    omega
  rw [if_neg this]

/-- The function never returns when `read` keeps returning zero. -/
theorem C50_end_of_file_never_returns (num : W) (h0 : num ≠ 0) (fuel : ℕ) :
    prgn_random_bytes (fun _ _ => some []) num fuel = none := by
  have hz : num.toNat ≠ 0 := fun h => h0 (BitVec.eq_of_toNat_eq h)
  have hgen : ∀ (fuel k : ℕ) (buf : Buffer), loop (fun _ _ => some []) num fuel k buf 0 = none := by
    intro fuel
    induction fuel with
    | zero => intros; rfl
    | succ fuel ih =>
      intro k buf
      rw [loop]
      have : (0 : W) + BitVec.ofNat 64 ([] : List Byte).length < num := by
        rw [BitVec.lt_def]; simp; omega
      simp only [this, if_true]
      exact ih _ _
  exact hgen _ _ _

/-- A system that gives at most two bytes at a time and fails at every third call. -/
example : ∃ read : Sys, read.Ok ∧ Isolated read ∧
    prgn_random_bytes read 5 20 = some [some 0#8, some 0#8, some 1#8, some 3#8, some 3#8] := by
  refine ⟨fun k n => if k % 3 = 2 then none else some (List.replicate (min n 2) (BitVec.ofNat 8 k)),
    ?_, ?_, by decide⟩
  · intro k n b h
    simp only at h
    split at h
    · cases h
    · cases h; simp
  · intro k n h
    simp only at h
    split at h
    · rename_i hk
      refine ⟨by omega, fun n' hn' => ?_⟩
      have : ¬ (k - 1) % 3 = 2 := by omega
      refine ⟨_, if_neg this, ?_⟩
      intro he
      have := congrArg List.length he
      simp at this
      omega
    · cases h

end Verif.Prng
