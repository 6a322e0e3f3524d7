import Verif.Ed448.EddsaStream
import Verif.Keccak.StreamLemmas

/-! # The hash calls of src/sign448.c compute SHAKE256 of the concatenation -/

namespace Verif.Ed448.Stream

open Verif.Ed25519 (Status)
open Verif.Keccak

theorem SHAKE256_eq (m : List Byte) (d : ℕ) : SHAKE256 m d = shake256 m d :=
  shakeCode_spec (by decide) (by decide) (by decide) m d

theorem stream_eq (chunks : List (List Byte)) (d : ℕ) :
    final2 (chunks.foldl update (init 256)) d = shake256 chunks.flatten d := by
  have := updates_inv (inv_init (n := 256) (R := 136) (by decide) (by decide)) chunks
  exact final2_spec (by simpa using this) d

theorem dom_eq (context : List Byte) (f : Byte) :
    domBytes context f = prefix10 context f ++ context := rfl

theorem signTail_eq (u : ℕ → W) (a b c d last context public_key ah : List Byte) (f : Byte)  :
    signTail (update (update (update (update (init 256) a) b) c) d) u last context public_key ah f =
      let r := modular_reduction (u 0) (u 1) (shake256 (a ++ b ++ c ++ d) 114)
      let R := point_encoding (fixed_point_multiplication (u 2) (u 3) r)
      let H_RAM := modular_reduction (u 4) (u 5)
        (shake256 (domBytes context f ++ R ++ public_key ++ last) 114)
      (.SIGNATURE_OK, some (R ++ calculate_s (u 6) (u 7) r H_RAM ah)) := by
  unfold signTail
  have e1 := stream_eq [a, b, c, d] 114
  simp only [List.foldl_cons, List.foldl_nil, List.flatten_cons, List.flatten_nil,
    List.append_nil] at e1
  simp only
  rw [e1, ← List.append_assoc, ← List.append_assoc]
  generalize modular_reduction (u 0) (u 1) (shake256 (a ++ b ++ c ++ d) 114) = r
  generalize point_encoding (fixed_point_multiplication (u 2) (u 3) r) = R
  have e2 := stream_eq [prefix10 context f, context, R, public_key, last] 114
  simp only [List.foldl_cons, List.foldl_nil, List.flatten_cons, List.flatten_nil,
    List.append_nil] at e2
  rw [e2, dom_eq]
  simp only [List.append_assoc]

/-- Signing: the streaming code is the model with H = SHAKE256. -/
theorem sign_all_eq (u : ℕ → W) (message context public_key private_key : List Byte) (f : Byte) :
    sign_all u message context public_key private_key f =
      Ed448.sign_all shake256 u message context public_key private_key f := by
  unfold sign_all Ed448.sign_all
  by_cases hC : context.length > 255
  · rw [if_pos hC, if_pos hC]
  rw [if_neg hC, if_neg hC]
  simp only [SHAKE256_eq, signTail_eq]
  unfold msgBytes
  by_cases h1 : f = 1
  · simp only [if_pos h1]
    simp only [dom_eq]
  · simp only [if_neg h1]
    by_cases h0 : f = 0
    · simp only [if_pos h0]
      simp only [dom_eq]
    · simp only [if_neg h0]

theorem verifyTail_eq (H : List Byte → ℕ → List Byte) (u : ℕ → W)
    (message context public_key signature m : List Byte) (f : Byte) (hC : ¬ context.length > 255)
    (hm : msgBytes H message f = some m) (hash : HashState) (hd : final2 hash 114 =
      H (domBytes context f ++ signature.take 57 ++ public_key ++ m) 114) :
    Ed448.verify_all H u message context public_key signature f =
      verifyTail hash u (point_decoding public_key) signature := by
  rw [Ed448.verify_all, if_neg hC, hm]
  generalize point_decoding public_key = d
  rcases d with _ | ⟨A, A2⟩
  · rfl
  · rw [verifyTail, hd]

/-- Verification: the streaming code is the model with H = SHAKE256. -/
theorem verify_all_eq (u : ℕ → W) (message context public_key signature : List Byte) (f : Byte) :
    verify_all u message context public_key signature f =
      Ed448.verify_all shake256 u message context public_key signature f := by
  have e (last : List Byte) : final2 (update (updateRA context public_key signature f) last) 114 =
      shake256 (domBytes context f ++ signature.take 57 ++ public_key ++ last) 114 := by
    have e2 := stream_eq [prefix10 context f, context, signature.take 57, public_key, last] 114
    simp only [List.foldl_cons, List.foldl_nil, List.flatten_cons, List.flatten_nil,
      List.append_nil] at e2
    rw [updateRA, e2, dom_eq]
    simp only [List.append_assoc]
  by_cases hC : context.length > 255
  · rw [verify_all, Ed448.verify_all, if_pos hC, if_pos hC]
  rw [verify_all, if_neg hC]
  by_cases h1 : f = 1
  · rw [if_pos h1, SHAKE256_eq]
    exact (verifyTail_eq _ _ _ _ _ _ _ _ hC (by rw [msgBytes, if_pos h1]) _ (e _)).symm
  · by_cases h0 : f = 0
    · rw [if_neg h1, if_pos h0]
      exact (verifyTail_eq _ _ _ _ _ _ _ _ hC (by rw [msgBytes, if_neg h1, if_pos h0]) _
        (e _)).symm
    · rw [if_neg h1, if_neg h0, Ed448.verify_all, if_neg hC, msgBytes, if_neg h1, if_neg h0]

end Verif.Ed448.Stream
