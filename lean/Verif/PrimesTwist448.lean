import Verif.PrimesTwist

/-! # Primality certificate (Pratt) of the large prime factor of the order of the twist of Curve448

Generated by a script. -/

namespace Verif.Primes

theorem prime_n10067 :
    Nat.Prime 10067 :=
  pratt 10067 2
    [2, 7, 719]
    (by decide +kernel)
    (forall_mem_of_dedup [2, 7, 719]
      (by decide +kernel)
      ⟨(by norm_num), (by norm_num), (by norm_num), trivial⟩)

theorem prime_n30257753761 :
    Nat.Prime 30257753761 :=
  pratt 30257753761 17
    [2, 2, 2, 2, 2, 3, 3, 5, 13, 463, 3491]
    (by decide +kernel)
    (forall_mem_of_dedup [2, 3, 5, 13, 463, 3491]
      (by decide +kernel)
      ⟨(by norm_num), (by norm_num), (by norm_num), (by norm_num), (by norm_num), (by norm_num), trivial⟩)

theorem prime_n552833 :
    Nat.Prime 552833 :=
  pratt 552833 3
    [2, 2, 2, 2, 2, 2, 2, 7, 617]
    (by decide +kernel)
    (forall_mem_of_dedup [2, 7, 617]
      (by decide +kernel)
      ⟨(by norm_num), (by norm_num), (by norm_num), trivial⟩)

theorem prime_n91450740527 :
    Nat.Prime 91450740527 :=
  pratt 91450740527 5
    [2, 107, 773, 552833]
    (by decide +kernel)
    (forall_mem_of_dedup [2, 107, 773, 552833]
      (by decide +kernel)
      ⟨(by norm_num), (by norm_num), (by norm_num), prime_n552833, trivial⟩)

theorem prime_n3458867485158836715058751 :
    Nat.Prime 3458867485158836715058751 :=
  pratt 3458867485158836715058751 13
    [2, 5, 5, 5, 5, 30257753761, 91450740527]
    (by decide +kernel)
    (forall_mem_of_dedup [2, 5, 30257753761, 91450740527]
      (by decide +kernel)
      ⟨(by norm_num), (by norm_num), prime_n30257753761, prime_n91450740527, trivial⟩)

theorem prime_n1671380110708512442103829423217 :
    Nat.Prime 1671380110708512442103829423217 :=
  pratt 1671380110708512442103829423217 5
    [2, 2, 2, 2, 3, 10067, 3458867485158836715058751]
    (by decide +kernel)
    (forall_mem_of_dedup [2, 3, 10067, 3458867485158836715058751]
      (by decide +kernel)
      ⟨(by norm_num), (by norm_num), prime_n10067, prime_n3458867485158836715058751, trivial⟩)

theorem prime_n84869 :
    Nat.Prime 84869 :=
  pratt 84869 3
    [2, 2, 7, 7, 433]
    (by decide +kernel)
    (forall_mem_of_dedup [2, 7, 433]
      (by decide +kernel)
      ⟨(by norm_num), (by norm_num), (by norm_num), trivial⟩)

theorem prime_n16703 :
    Nat.Prime 16703 :=
  pratt 16703 5
    [2, 7, 1193]
    (by decide +kernel)
    (forall_mem_of_dedup [2, 7, 1193]
      (by decide +kernel)
      ⟨(by norm_num), (by norm_num), (by norm_num), trivial⟩)

theorem prime_n701527 :
    Nat.Prime 701527 :=
  pratt 701527 3
    [2, 3, 7, 16703]
    (by decide +kernel)
    (forall_mem_of_dedup [2, 3, 7, 16703]
      (by decide +kernel)
      ⟨(by norm_num), (by norm_num), (by norm_num), prime_n16703, trivial⟩)

theorem prime_n9437362120201 :
    Nat.Prime 9437362120201 :=
  pratt 9437362120201 26
    [2, 2, 2, 3, 5, 5, 7, 3203, 701527]
    (by decide +kernel)
    (forall_mem_of_dedup [2, 3, 5, 7, 3203, 701527]
      (by decide +kernel)
      ⟨(by norm_num), (by norm_num), (by norm_num), (by norm_num), (by norm_num), prime_n701527, trivial⟩)

theorem prime_n8423 :
    Nat.Prime 8423 :=
  pratt 8423 5
    [2, 4211]
    (by decide +kernel)
    (forall_mem_of_dedup [2, 4211]
      (by decide +kernel)
      ⟨(by norm_num), (by norm_num), trivial⟩)

theorem prime_n77946443 :
    Nat.Prime 77946443 :=
  pratt 77946443 2
    [2, 7, 661, 8423]
    (by decide +kernel)
    (forall_mem_of_dedup [2, 7, 661, 8423]
      (by decide +kernel)
      ⟨(by norm_num), (by norm_num), (by norm_num), prime_n8423, trivial⟩)

theorem prime_n550480097 :
    Nat.Prime 550480097 :=
  pratt 550480097 3
    [2, 2, 2, 2, 2, 167, 239, 431]
    (by decide +kernel)
    (forall_mem_of_dedup [2, 167, 239, 431]
      (by decide +kernel)
      ⟨(by norm_num), (by norm_num), (by norm_num), (by norm_num), trivial⟩)

theorem prime_n186062272787 :
    Nat.Prime 186062272787 :=
  pratt 186062272787 2
    [2, 13, 13, 550480097]
    (by decide +kernel)
    (forall_mem_of_dedup [2, 13, 550480097]
      (by decide +kernel)
      ⟨(by norm_num), (by norm_num), prime_n550480097, trivial⟩)

theorem prime_n9151 :
    Nat.Prime 9151 :=
  pratt 9151 3
    [2, 3, 5, 5, 61]
    (by decide +kernel)
    (forall_mem_of_dedup [2, 3, 5, 61]
      (by decide +kernel)
      ⟨(by norm_num), (by norm_num), (by norm_num), (by norm_num), trivial⟩)

theorem prime_n1738691 :
    Nat.Prime 1738691 :=
  pratt 1738691 2
    [2, 5, 19, 9151]
    (by decide +kernel)
    (forall_mem_of_dedup [2, 5, 19, 9151]
      (by decide +kernel)
      ⟨(by norm_num), (by norm_num), (by norm_num), prime_n9151, trivial⟩)

theorem prime_n13909529 :
    Nat.Prime 13909529 :=
  pratt 13909529 3
    [2, 2, 2, 1738691]
    (by decide +kernel)
    (forall_mem_of_dedup [2, 1738691]
      (by decide +kernel)
      ⟨(by norm_num), prime_n1738691, trivial⟩)

theorem prime_n999964351 :
    Nat.Prime 999964351 :=
  pratt 999964351 12
    [2, 3, 3, 5, 5, 7, 11, 28859]
    (by decide +kernel)
    (forall_mem_of_dedup [2, 3, 5, 7, 11, 28859]
      (by decide +kernel)
      ⟨(by norm_num), (by norm_num), (by norm_num), (by norm_num), (by norm_num), prime_n28859, trivial⟩)

theorem prime_n27818066278401359 :
    Nat.Prime 27818066278401359 :=
  pratt 27818066278401359 7
    [2, 13909529, 999964351]
    (by decide +kernel)
    (forall_mem_of_dedup [2, 13909529, 999964351]
      (by decide +kernel)
      ⟨(by norm_num), prime_n13909529, prime_n999964351, trivial⟩)

theorem prime_n2703522806075700613189177 :
    Nat.Prime 2703522806075700613189177 :=
  pratt 2703522806075700613189177 7
    [2, 2, 2, 3, 89, 173, 263, 27818066278401359]
    (by decide +kernel)
    (forall_mem_of_dedup [2, 3, 89, 173, 263, 27818066278401359]
      (by decide +kernel)
      ⟨(by norm_num), (by norm_num), (by norm_num), (by norm_num), (by norm_num), prime_n27818066278401359, trivial⟩)

theorem prime_n39863 :
    Nat.Prime 39863 :=
  pratt 39863 5
    [2, 19, 1049]
    (by decide +kernel)
    (forall_mem_of_dedup [2, 19, 1049]
      (by decide +kernel)
      ⟨(by norm_num), (by norm_num), (by norm_num), trivial⟩)

theorem prime_n1195891 :
    Nat.Prime 1195891 :=
  pratt 1195891 2
    [2, 3, 5, 39863]
    (by decide +kernel)
    (forall_mem_of_dedup [2, 3, 5, 39863]
      (by decide +kernel)
      ⟨(by norm_num), (by norm_num), (by norm_num), prime_n39863, trivial⟩)

theorem prime_n9227 :
    Nat.Prime 9227 :=
  pratt 9227 2
    [2, 7, 659]
    (by decide +kernel)
    (forall_mem_of_dedup [2, 7, 659]
      (by decide +kernel)
      ⟨(by norm_num), (by norm_num), (by norm_num), trivial⟩)

theorem prime_n77912789 :
    Nat.Prime 77912789 :=
  pratt 77912789 2
    [2, 2, 2111, 9227]
    (by decide +kernel)
    (forall_mem_of_dedup [2, 2111, 9227]
      (by decide +kernel)
      ⟨(by norm_num), (by norm_num), prime_n9227, trivial⟩)

theorem prime_n1948699 :
    Nat.Prime 1948699 :=
  pratt 1948699 2
    [2, 3, 3, 3, 3, 23, 523]
    (by decide +kernel)
    (forall_mem_of_dedup [2, 3, 23, 523]
      (by decide +kernel)
      ⟨(by norm_num), (by norm_num), (by norm_num), (by norm_num), trivial⟩)

theorem prime_n32037243671365622938525385539447601257252076559602597 :
    Nat.Prime 32037243671365622938525385539447601257252076559602597 :=
  pratt 32037243671365622938525385539447601257252076559602597 2
    [2, 2, 7, 41, 139, 409, 1195891, 1948699, 77912789, 2703522806075700613189177]
    (by decide +kernel)
    (forall_mem_of_dedup [2, 7, 41, 139, 409, 1195891, 1948699, 77912789, 2703522806075700613189177]
      (by decide +kernel)
      ⟨(by norm_num), (by norm_num), (by norm_num), (by norm_num), (by norm_num), prime_n1195891, prime_n1948699, prime_n77912789, prime_n2703522806075700613189177, trivial⟩)

theorem prime_n134209075623850670257907127035661234387627594536271696043327 :
    Nat.Prime 134209075623850670257907127035661234387627594536271696043327 :=
  pratt 134209075623850670257907127035661234387627594536271696043327 3
    [2, 3, 3, 3, 3, 19, 1361, 32037243671365622938525385539447601257252076559602597]
    (by decide +kernel)
    (forall_mem_of_dedup [2, 3, 19, 1361, 32037243671365622938525385539447601257252076559602597]
      (by decide +kernel)
      ⟨(by norm_num), (by norm_num), (by norm_num), (by norm_num), prime_n32037243671365622938525385539447601257252076559602597, trivial⟩)

theorem prime_n3486877 :
    Nat.Prime 3486877 :=
  pratt 3486877 2
    [2, 2, 3, 277, 1049]
    (by decide +kernel)
    (forall_mem_of_dedup [2, 3, 277, 1049]
      (by decide +kernel)
      ⟨(by norm_num), (by norm_num), (by norm_num), (by norm_num), trivial⟩)

theorem prime_t448 :
    Nat.Prime 181709681073901722637330951972001133588410340171829515070372549795160160121825800627002436557645897001734148521830156375752993149532941 :=
  pratt 181709681073901722637330951972001133588410340171829515070372549795160160121825800627002436557645897001734148521830156375752993149532941 3
    [2, 2, 5, 84869, 3486877, 77946443, 186062272787, 9437362120201, 1671380110708512442103829423217, 134209075623850670257907127035661234387627594536271696043327]
    (by decide +kernel)
    (forall_mem_of_dedup [2, 5, 84869, 3486877, 77946443, 186062272787, 9437362120201, 1671380110708512442103829423217, 134209075623850670257907127035661234387627594536271696043327]
      (by decide +kernel)
      ⟨(by norm_num), (by norm_num), prime_n84869, prime_n3486877, prime_n77946443, prime_n186062272787, prime_n9437362120201, prime_n1671380110708512442103829423217, prime_n134209075623850670257907127035661234387627594536271696043327, trivial⟩)

end Verif.Primes
