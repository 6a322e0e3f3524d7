import Verif.Primes

/-! # Primality certificate (Pratt) of the large prime factor of the order of the twist of Curve25519

Generated by a script. -/

namespace Verif.Primes

theorem prime_n117223 : Nat.Prime 117223 :=
  pratt 117223 3 [2, 3, 7, 2791] (by decide +kernel)
    (forall_mem_of_dedup [2, 3, 7, 2791] (by decide +kernel)
      ⟨(by norm_num), (by norm_num), (by norm_num), (by norm_num), trivial⟩)

theorem prime_n84457 : Nat.Prime 84457 :=
  pratt 84457 5 [2, 2, 2, 3, 3, 3, 17, 23] (by decide +kernel)
    (forall_mem_of_dedup [2, 3, 17, 23] (by decide +kernel)
      ⟨(by norm_num), (by norm_num), (by norm_num), (by norm_num), trivial⟩)

theorem prime_n6418733 : Nat.Prime 6418733 :=
  pratt 6418733 2 [2, 2, 19, 84457] (by decide +kernel)
    (forall_mem_of_dedup [2, 19, 84457] (by decide +kernel)
      ⟨(by norm_num), (by norm_num), prime_n84457, trivial⟩)

theorem prime_n727169 : Nat.Prime 727169 :=
  pratt 727169 3 [2, 2, 2, 2, 2, 2, 2, 13, 19, 23] (by decide +kernel)
    (forall_mem_of_dedup [2, 13, 19, 23] (by decide +kernel)
      ⟨(by norm_num), (by norm_num), (by norm_num), (by norm_num), trivial⟩)

theorem prime_n28859 : Nat.Prime 28859 :=
  pratt 28859 2 [2, 47, 307] (by decide +kernel)
    (forall_mem_of_dedup [2, 47, 307] (by decide +kernel)
      ⟨(by norm_num), (by norm_num), (by norm_num), trivial⟩)

theorem prime_n5171003929967 : Nat.Prime 5171003929967 :=
  pratt 5171003929967 5 [2, 7, 31, 181, 2281, 28859] (by decide +kernel)
    (forall_mem_of_dedup [2, 7, 31, 181, 2281, 28859] (by decide +kernel)
      ⟨(by norm_num), (by norm_num), (by norm_num), (by norm_num), (by norm_num), prime_n28859, trivial⟩)

theorem prime_n22561162540501040539 : Nat.Prime 22561162540501040539 :=
  pratt 22561162540501040539 3 [2, 3, 727169, 5171003929967] (by decide +kernel)
    (forall_mem_of_dedup [2, 3, 727169, 5171003929967] (by decide +kernel)
      ⟨(by norm_num), (by norm_num), prime_n727169, prime_n5171003929967, trivial⟩)

theorem prime_n8053 : Nat.Prime 8053 :=
  pratt 8053 2 [2, 2, 3, 11, 61] (by decide +kernel)
    (forall_mem_of_dedup [2, 3, 11, 61] (by decide +kernel)
      ⟨(by norm_num), (by norm_num), (by norm_num), (by norm_num), trivial⟩)

theorem prime_n1013266244677 : Nat.Prime 1013266244677 :=
  pratt 1013266244677 2 [2, 2, 3, 7, 383, 3911, 8053] (by decide +kernel)
    (forall_mem_of_dedup [2, 3, 7, 383, 3911, 8053] (by decide +kernel)
      ⟨(by norm_num), (by norm_num), (by norm_num), (by norm_num), (by norm_num), prime_n8053, trivial⟩)

theorem prime_n11351 : Nat.Prime 11351 :=
  pratt 11351 7 [2, 5, 5, 227] (by decide +kernel)
    (forall_mem_of_dedup [2, 5, 227] (by decide +kernel)
      ⟨(by norm_num), (by norm_num), (by norm_num), trivial⟩)

theorem prime_n743104567 : Nat.Prime 743104567 :=
  pratt 743104567 6 [2, 3, 3, 3637, 11351] (by decide +kernel)
    (forall_mem_of_dedup [2, 3, 3637, 11351] (by decide +kernel)
      ⟨(by norm_num), (by norm_num), (by norm_num), prime_n11351, trivial⟩)

theorem prime_n203852586375664218368381551393371968928013 : Nat.Prime 203852586375664218368381551393371968928013 :=
  pratt 203852586375664218368381551393371968928013 2 [2, 2, 3, 743104567, 1013266244677, 22561162540501040539] (by decide +kernel)
    (forall_mem_of_dedup [2, 3, 743104567, 1013266244677, 22561162540501040539] (by decide +kernel)
      ⟨(by norm_num), (by norm_num), prime_n743104567, prime_n1013266244677, prime_n22561162540501040539, trivial⟩)

theorem prime_n104719073621178708975837602950775180438320278101 : Nat.Prime 104719073621178708975837602950775180438320278101 :=
  pratt 104719073621178708975837602950775180438320278101 2 [2, 2, 5, 5, 11, 467, 203852586375664218368381551393371968928013] (by decide +kernel)
    (forall_mem_of_dedup [2, 5, 11, 467, 203852586375664218368381551393371968928013] (by decide +kernel)
      ⟨(by norm_num), (by norm_num), (by norm_num), (by norm_num), prime_n203852586375664218368381551393371968928013, trivial⟩)

theorem prime_n27413359092552162435694767700453926735143482401279781 : Nat.Prime 27413359092552162435694767700453926735143482401279781 :=
  pratt 27413359092552162435694767700453926735143482401279781 2 [2, 2, 3, 5, 4363, 104719073621178708975837602950775180438320278101] (by decide +kernel)
    (forall_mem_of_dedup [2, 3, 5, 4363, 104719073621178708975837602950775180438320278101] (by decide +kernel)
      ⟨(by norm_num), (by norm_num), (by norm_num), (by norm_num), prime_n104719073621178708975837602950775180438320278101, trivial⟩)

theorem prime_n6263 : Nat.Prime 6263 :=
  pratt 6263 5 [2, 31, 101] (by decide +kernel)
    (forall_mem_of_dedup [2, 31, 101] (by decide +kernel)
      ⟨(by norm_num), (by norm_num), (by norm_num), trivial⟩)

theorem prime_n12527 : Nat.Prime 12527 :=
  pratt 12527 5 [2, 6263] (by decide +kernel)
    (forall_mem_of_dedup [2, 6263] (by decide +kernel)
      ⟨(by norm_num), prime_n6263, trivial⟩)

theorem prime_n1110318119 : Nat.Prime 1110318119 :=
  pratt 1110318119 7 [2, 7, 13, 487, 12527] (by decide +kernel)
    (forall_mem_of_dedup [2, 7, 13, 487, 12527] (by decide +kernel)
      ⟨(by norm_num), (by norm_num), (by norm_num), (by norm_num), prime_n12527, trivial⟩)

theorem prime_n2220636239 : Nat.Prime 2220636239 :=
  pratt 2220636239 23 [2, 1110318119] (by decide +kernel)
    (forall_mem_of_dedup [2, 1110318119] (by decide +kernel)
      ⟨(by norm_num), prime_n1110318119, trivial⟩)

theorem prime_t25519 : Nat.Prime 14474011154664524427946373126085988481603263447650325797860494125407373907997 :=
  pratt 14474011154664524427946373126085988481603263447650325797860494125407373907997 2 [2, 2, 79, 117223, 6418733, 2220636239, 27413359092552162435694767700453926735143482401279781] (by decide +kernel)
    (forall_mem_of_dedup [2, 79, 117223, 6418733, 2220636239, 27413359092552162435694767700453926735143482401279781] (by decide +kernel)
      ⟨(by norm_num), (by norm_num), prime_n117223, prime_n6418733, prime_n2220636239, prime_n27413359092552162435694767700453926735143482401279781, trivial⟩)

end Verif.Primes
