import Verif.Lemmas.Pratt
/-! Generated by tools/pratt.py. -/
namespace Secp256k1

theorem prime_13441 : Nat.Prime 13441 := by
  refine pratt 13441 11 [2, 2, 2, 2, 2, 2, 2, 3, 5, 7] ?_ (by decide +kernel) (by decide +kernel) (by decide +kernel) (by decide +kernel)
  intro q hq
  simp only [List.mem_cons, List.not_mem_nil, or_false] at hq
  rcases hq with rfl | rfl | rfl | rfl | rfl | rfl | rfl | rfl | rfl | rfl
  · norm_num
  · norm_num
  · norm_num
  · norm_num
  · norm_num
  · norm_num
  · norm_num
  · norm_num
  · norm_num
  · norm_num
theorem prime_7723 : Nat.Prime 7723 := by
  refine pratt 7723 3 [2, 3, 3, 3, 11, 13] ?_ (by decide +kernel) (by decide +kernel) (by decide +kernel) (by decide +kernel)
  intro q hq
  simp only [List.mem_cons, List.not_mem_nil, or_false] at hq
  rcases hq with rfl | rfl | rfl | rfl | rfl | rfl
  · norm_num
  · norm_num
  · norm_num
  · norm_num
  · norm_num
  · norm_num
theorem prime_443 : Nat.Prime 443 := by
  refine pratt 443 2 [2, 13, 17] ?_ (by decide +kernel) (by decide +kernel) (by decide +kernel) (by decide +kernel)
  intro q hq
  simp only [List.mem_cons, List.not_mem_nil, or_false] at hq
  rcases hq with rfl | rfl | rfl
  · norm_num
  · norm_num
  · norm_num
theorem prime_887 : Nat.Prime 887 := by
  refine pratt 887 5 [2, 443] ?_ (by decide +kernel) (by decide +kernel) (by decide +kernel) (by decide +kernel)
  intro q hq
  simp only [List.mem_cons, List.not_mem_nil, or_false] at hq
  rcases hq with rfl | rfl
  · norm_num
  · exact prime_443
theorem prime_5323 : Nat.Prime 5323 := by
  refine pratt 5323 5 [2, 3, 887] ?_ (by decide +kernel) (by decide +kernel) (by decide +kernel) (by decide +kernel)
  intro q hq
  simp only [List.mem_cons, List.not_mem_nil, or_false] at hq
  rcases hq with rfl | rfl | rfl
  · norm_num
  · norm_num
  · exact prime_887
theorem prime_2621 : Nat.Prime 2621 := by
  refine pratt 2621 2 [2, 2, 5, 131] ?_ (by decide +kernel) (by decide +kernel) (by decide +kernel) (by decide +kernel)
  intro q hq
  simp only [List.mem_cons, List.not_mem_nil, or_false] at hq
  rcases hq with rfl | rfl | rfl | rfl
  · norm_num
  · norm_num
  · norm_num
  · norm_num
theorem prime_24809 : Nat.Prime 24809 := by
  refine pratt 24809 6 [2, 2, 2, 7, 443] ?_ (by decide +kernel) (by decide +kernel) (by decide +kernel) (by decide +kernel)
  intro q hq
  simp only [List.mem_cons, List.not_mem_nil, or_false] at hq
  rcases hq with rfl | rfl | rfl | rfl | rfl
  · norm_num
  · norm_num
  · norm_num
  · norm_num
  · exact prime_443
theorem prime_971 : Nat.Prime 971 := by
  refine pratt 971 6 [2, 5, 97] ?_ (by decide +kernel) (by decide +kernel) (by decide +kernel) (by decide +kernel)
  intro q hq
  simp only [List.mem_cons, List.not_mem_nil, or_false] at hq
  rcases hq with rfl | rfl | rfl
  · norm_num
  · norm_num
  · norm_num
theorem prime_1373 : Nat.Prime 1373 := by
  refine pratt 1373 2 [2, 2, 7, 7, 7] ?_ (by decide +kernel) (by decide +kernel) (by decide +kernel) (by decide +kernel)
  intro q hq
  simp only [List.mem_cons, List.not_mem_nil, or_false] at hq
  rcases hq with rfl | rfl | rfl | rfl | rfl
  · norm_num
  · norm_num
  · norm_num
  · norm_num
  · norm_num
theorem prime_13331831 : Nat.Prime 13331831 := by
  refine pratt 13331831 13 [2, 5, 971, 1373] ?_ (by decide +kernel) (by decide +kernel) (by decide +kernel) (by decide +kernel)
  intro q hq
  simp only [List.mem_cons, List.not_mem_nil, or_false] at hq
  rcases hq with rfl | rfl | rfl | rfl
  · norm_num
  · norm_num
  · exact prime_971
  · exact prime_1373
theorem prime_173378833005251801 : Nat.Prime 173378833005251801 := by
  refine pratt 173378833005251801 6 [2, 2, 2, 5, 5, 2621, 24809, 13331831] ?_ (by decide +kernel) (by decide +kernel) (by decide +kernel) (by decide +kernel)
  intro q hq
  simp only [List.mem_cons, List.not_mem_nil, or_false] at hq
  rcases hq with rfl | rfl | rfl | rfl | rfl | rfl | rfl | rfl
  · norm_num
  · norm_num
  · norm_num
  · norm_num
  · norm_num
  · exact prime_2621
  · exact prime_24809
  · exact prime_13331831
theorem prime_22149492674086928081353 : Nat.Prime 22149492674086928081353 := by
  refine pratt 22149492674086928081353 5 [2, 2, 2, 3, 5323, 173378833005251801] ?_ (by decide +kernel) (by decide +kernel) (by decide +kernel) (by decide +kernel)
  intro q hq
  simp only [List.mem_cons, List.not_mem_nil, or_false] at hq
  rcases hq with rfl | rfl | rfl | rfl | rfl | rfl
  · norm_num
  · norm_num
  · norm_num
  · norm_num
  · exact prime_5323
  · exact prime_173378833005251801
theorem prime_132896956044521568488119 : Nat.Prime 132896956044521568488119 := by
  refine pratt 132896956044521568488119 6 [2, 3, 22149492674086928081353] ?_ (by decide +kernel) (by decide +kernel) (by decide +kernel) (by decide +kernel)
  intro q hq
  simp only [List.mem_cons, List.not_mem_nil, or_false] at hq
  rcases hq with rfl | rfl | rfl
  · norm_num
  · norm_num
  · exact prime_22149492674086928081353
theorem prime_1627 : Nat.Prime 1627 := by
  refine pratt 1627 3 [2, 3, 271] ?_ (by decide +kernel) (by decide +kernel) (by decide +kernel) (by decide +kernel)
  intro q hq
  simp only [List.mem_cons, List.not_mem_nil, or_false] at hq
  rcases hq with rfl | rfl | rfl
  · norm_num
  · norm_num
  · norm_num
theorem prime_2657 : Nat.Prime 2657 := by
  refine pratt 2657 3 [2, 2, 2, 2, 2, 83] ?_ (by decide +kernel) (by decide +kernel) (by decide +kernel) (by decide +kernel)
  intro q hq
  simp only [List.mem_cons, List.not_mem_nil, or_false] at hq
  rcases hq with rfl | rfl | rfl | rfl | rfl | rfl
  · norm_num
  · norm_num
  · norm_num
  · norm_num
  · norm_num
  · norm_num
theorem prime_4423 : Nat.Prime 4423 := by
  refine pratt 4423 3 [2, 3, 11, 67] ?_ (by decide +kernel) (by decide +kernel) (by decide +kernel) (by decide +kernel)
  intro q hq
  simp only [List.mem_cons, List.not_mem_nil, or_false] at hq
  rcases hq with rfl | rfl | rfl | rfl
  · norm_num
  · norm_num
  · norm_num
  · norm_num
theorem prime_41201 : Nat.Prime 41201 := by
  refine pratt 41201 3 [2, 2, 2, 2, 5, 5, 103] ?_ (by decide +kernel) (by decide +kernel) (by decide +kernel) (by decide +kernel)
  intro q hq
  simp only [List.mem_cons, List.not_mem_nil, or_false] at hq
  rcases hq with rfl | rfl | rfl | rfl | rfl | rfl | rfl
  · norm_num
  · norm_num
  · norm_num
  · norm_num
  · norm_num
  · norm_num
  · norm_num
theorem prime_96557 : Nat.Prime 96557 := by
  refine pratt 96557 2 [2, 2, 101, 239] ?_ (by decide +kernel) (by decide +kernel) (by decide +kernel) (by decide +kernel)
  intro q hq
  simp only [List.mem_cons, List.not_mem_nil, or_false] at hq
  rcases hq with rfl | rfl | rfl | rfl
  · norm_num
  · norm_num
  · norm_num
  · norm_num
theorem prime_419 : Nat.Prime 419 := by
  refine pratt 419 2 [2, 11, 19] ?_ (by decide +kernel) (by decide +kernel) (by decide +kernel) (by decide +kernel)
  intro q hq
  simp only [List.mem_cons, List.not_mem_nil, or_false] at hq
  rcases hq with rfl | rfl | rfl
  · norm_num
  · norm_num
  · norm_num
theorem prime_20113 : Nat.Prime 20113 := by
  refine pratt 20113 10 [2, 2, 2, 2, 3, 419] ?_ (by decide +kernel) (by decide +kernel) (by decide +kernel) (by decide +kernel)
  intro q hq
  simp only [List.mem_cons, List.not_mem_nil, or_false] at hq
  rcases hq with rfl | rfl | rfl | rfl | rfl | rfl
  · norm_num
  · norm_num
  · norm_num
  · norm_num
  · norm_num
  · exact prime_419
theorem prime_1206781 : Nat.Prime 1206781 := by
  refine pratt 1206781 10 [2, 2, 3, 5, 20113] ?_ (by decide +kernel) (by decide +kernel) (by decide +kernel) (by decide +kernel)
  intro q hq
  simp only [List.mem_cons, List.not_mem_nil, or_false] at hq
  rcases hq with rfl | rfl | rfl | rfl | rfl
  · norm_num
  · norm_num
  · norm_num
  · norm_num
  · exact prime_20113
theorem prime_7240687 : Nat.Prime 7240687 := by
  refine pratt 7240687 3 [2, 3, 1206781] ?_ (by decide +kernel) (by decide +kernel) (by decide +kernel) (by decide +kernel)
  intro q hq
  simp only [List.mem_cons, List.not_mem_nil, or_false] at hq
  rcases hq with rfl | rfl | rfl
  · norm_num
  · norm_num
  · exact prime_1206781
theorem prime_107590001 : Nat.Prime 107590001 := by
  refine pratt 107590001 3 [2, 2, 2, 2, 5, 5, 5, 5, 7, 29, 53] ?_ (by decide +kernel) (by decide +kernel) (by decide +kernel) (by decide +kernel)
  intro q hq
  simp only [List.mem_cons, List.not_mem_nil, or_false] at hq
  rcases hq with rfl | rfl | rfl | rfl | rfl | rfl | rfl | rfl | rfl | rfl | rfl
  · norm_num
  · norm_num
  · norm_num
  · norm_num
  · norm_num
  · norm_num
  · norm_num
  · norm_num
  · norm_num
  · norm_num
  · norm_num
theorem prime_255515944373312847190720520512484175977 : Nat.Prime 255515944373312847190720520512484175977 := by
  refine pratt 255515944373312847190720520512484175977 3 [2, 2, 2, 7, 7, 11, 1627, 2657, 4423, 41201, 96557, 7240687, 107590001] ?_ (by decide +kernel) (by decide +kernel) (by decide +kernel) (by decide +kernel)
  intro q hq
  simp only [List.mem_cons, List.not_mem_nil, or_false] at hq
  rcases hq with rfl | rfl | rfl | rfl | rfl | rfl | rfl | rfl | rfl | rfl | rfl | rfl | rfl
  · norm_num
  · norm_num
  · norm_num
  · norm_num
  · norm_num
  · norm_num
  · exact prime_1627
  · exact prime_2657
  · exact prime_4423
  · exact prime_41201
  · exact prime_96557
  · exact prime_7240687
  · exact prime_107590001
theorem prime_205115282021455665897114700593932402728804164701536103180137503955397371 : Nat.Prime 205115282021455665897114700593932402728804164701536103180137503955397371 := by
  refine pratt 205115282021455665897114700593932402728804164701536103180137503955397371 10 [2, 3, 5, 29, 29, 31, 7723, 132896956044521568488119, 255515944373312847190720520512484175977] ?_ (by decide +kernel) (by decide +kernel) (by decide +kernel) (by decide +kernel)
  intro q hq
  simp only [List.mem_cons, List.not_mem_nil, or_false] at hq
  rcases hq with rfl | rfl | rfl | rfl | rfl | rfl | rfl | rfl | rfl
  · norm_num
  · norm_num
  · norm_num
  · norm_num
  · norm_num
  · norm_num
  · exact prime_7723
  · exact prime_132896956044521568488119
  · exact prime_255515944373312847190720520512484175977
theorem prime_115792089237316195423570985008687907853269984665640564039457584007908834671663 : Nat.Prime 115792089237316195423570985008687907853269984665640564039457584007908834671663 := by
  refine pratt 115792089237316195423570985008687907853269984665640564039457584007908834671663 3 [2, 3, 7, 13441, 205115282021455665897114700593932402728804164701536103180137503955397371] ?_ (by decide +kernel) (by decide +kernel) (by decide +kernel) (by decide +kernel)
  intro q hq
  simp only [List.mem_cons, List.not_mem_nil, or_false] at hq
  rcases hq with rfl | rfl | rfl | rfl | rfl
  · norm_num
  · norm_num
  · norm_num
  · exact prime_13441
  · exact prime_205115282021455665897114700593932402728804164701536103180137503955397371
theorem prime_631 : Nat.Prime 631 := by
  refine pratt 631 3 [2, 3, 3, 5, 7] ?_ (by decide +kernel) (by decide +kernel) (by decide +kernel) (by decide +kernel)
  intro q hq
  simp only [List.mem_cons, List.not_mem_nil, or_false] at hq
  rcases hq with rfl | rfl | rfl | rfl | rfl
  · norm_num
  · norm_num
  · norm_num
  · norm_num
  · norm_num
theorem prime_16699 : Nat.Prime 16699 := by
  refine pratt 16699 3 [2, 3, 11, 11, 23] ?_ (by decide +kernel) (by decide +kernel) (by decide +kernel) (by decide +kernel)
  intro q hq
  simp only [List.mem_cons, List.not_mem_nil, or_false] at hq
  rcases hq with rfl | rfl | rfl | rfl | rfl
  · norm_num
  · norm_num
  · norm_num
  · norm_num
  · norm_num
theorem prime_2861 : Nat.Prime 2861 := by
  refine pratt 2861 2 [2, 2, 5, 11, 13] ?_ (by decide +kernel) (by decide +kernel) (by decide +kernel) (by decide +kernel)
  intro q hq
  simp only [List.mem_cons, List.not_mem_nil, or_false] at hq
  rcases hq with rfl | rfl | rfl | rfl | rfl
  · norm_num
  · norm_num
  · norm_num
  · norm_num
  · norm_num
theorem prime_85831 : Nat.Prime 85831 := by
  refine pratt 85831 3 [2, 3, 5, 2861] ?_ (by decide +kernel) (by decide +kernel) (by decide +kernel) (by decide +kernel)
  intro q hq
  simp only [List.mem_cons, List.not_mem_nil, or_false] at hq
  rcases hq with rfl | rfl | rfl | rfl
  · norm_num
  · norm_num
  · norm_num
  · exact prime_2861
theorem prime_2011 : Nat.Prime 2011 := by
  refine pratt 2011 3 [2, 3, 5, 67] ?_ (by decide +kernel) (by decide +kernel) (by decide +kernel) (by decide +kernel)
  intro q hq
  simp only [List.mem_cons, List.not_mem_nil, or_false] at hq
  rcases hq with rfl | rfl | rfl | rfl
  · norm_num
  · norm_num
  · norm_num
  · norm_num
theorem prime_4681609 : Nat.Prime 4681609 := by
  refine pratt 4681609 23 [2, 2, 2, 3, 97, 2011] ?_ (by decide +kernel) (by decide +kernel) (by decide +kernel) (by decide +kernel)
  intro q hq
  simp only [List.mem_cons, List.not_mem_nil, or_false] at hq
  rcases hq with rfl | rfl | rfl | rfl | rfl | rfl
  · norm_num
  · norm_num
  · norm_num
  · norm_num
  · norm_num
  · exact prime_2011
theorem prime_107361793816595537 : Nat.Prime 107361793816595537 := by
  refine pratt 107361793816595537 3 [2, 2, 2, 2, 16699, 85831, 4681609] ?_ (by decide +kernel) (by decide +kernel) (by decide +kernel) (by decide +kernel)
  intro q hq
  simp only [List.mem_cons, List.not_mem_nil, or_false] at hq
  rcases hq with rfl | rfl | rfl | rfl | rfl | rfl | rfl
  · norm_num
  · norm_num
  · norm_num
  · norm_num
  · exact prime_16699
  · exact prime_85831
  · exact prime_4681609
theorem prime_4051 : Nat.Prime 4051 := by
  refine pratt 4051 10 [2, 3, 3, 3, 3, 5, 5] ?_ (by decide +kernel) (by decide +kernel) (by decide +kernel) (by decide +kernel)
  intro q hq
  simp only [List.mem_cons, List.not_mem_nil, or_false] at hq
  rcases hq with rfl | rfl | rfl | rfl | rfl | rfl | rfl
  · norm_num
  · norm_num
  · norm_num
  · norm_num
  · norm_num
  · norm_num
  · norm_num
theorem prime_120233 : Nat.Prime 120233 := by
  refine pratt 120233 3 [2, 2, 2, 7, 19, 113] ?_ (by decide +kernel) (by decide +kernel) (by decide +kernel) (by decide +kernel)
  intro q hq
  simp only [List.mem_cons, List.not_mem_nil, or_false] at hq
  rcases hq with rfl | rfl | rfl | rfl | rfl | rfl
  · norm_num
  · norm_num
  · norm_num
  · norm_num
  · norm_num
  · norm_num
theorem prime_797 : Nat.Prime 797 := by
  refine pratt 797 2 [2, 2, 199] ?_ (by decide +kernel) (by decide +kernel) (by decide +kernel) (by decide +kernel)
  intro q hq
  simp only [List.mem_cons, List.not_mem_nil, or_false] at hq
  rcases hq with rfl | rfl | rfl
  · norm_num
  · norm_num
  · norm_num
theorem prime_9349 : Nat.Prime 9349 := by
  refine pratt 9349 2 [2, 2, 3, 19, 41] ?_ (by decide +kernel) (by decide +kernel) (by decide +kernel) (by decide +kernel)
  intro q hq
  simp only [List.mem_cons, List.not_mem_nil, or_false] at hq
  rcases hq with rfl | rfl | rfl | rfl | rfl
  · norm_num
  · norm_num
  · norm_num
  · norm_num
  · norm_num
theorem prime_44706919 : Nat.Prime 44706919 := by
  refine pratt 44706919 6 [2, 3, 797, 9349] ?_ (by decide +kernel) (by decide +kernel) (by decide +kernel) (by decide +kernel)
  intro q hq
  simp only [List.mem_cons, List.not_mem_nil, or_false] at hq
  rcases hq with rfl | rfl | rfl | rfl
  · norm_num
  · norm_num
  · exact prime_797
  · exact prime_9349
theorem prime_174723607534414371449 : Nat.Prime 174723607534414371449 := by
  refine pratt 174723607534414371449 3 [2, 2, 2, 17, 59, 4051, 120233, 44706919] ?_ (by decide +kernel) (by decide +kernel) (by decide +kernel) (by decide +kernel)
  intro q hq
  simp only [List.mem_cons, List.not_mem_nil, or_false] at hq
  rcases hq with rfl | rfl | rfl | rfl | rfl | rfl | rfl | rfl
  · norm_num
  · norm_num
  · norm_num
  · norm_num
  · norm_num
  · exact prime_4051
  · exact prime_120233
  · exact prime_44706919
theorem prime_2731 : Nat.Prime 2731 := by
  refine pratt 2731 3 [2, 3, 5, 7, 13] ?_ (by decide +kernel) (by decide +kernel) (by decide +kernel) (by decide +kernel)
  intro q hq
  simp only [List.mem_cons, List.not_mem_nil, or_false] at hq
  rcases hq with rfl | rfl | rfl | rfl | rfl
  · norm_num
  · norm_num
  · norm_num
  · norm_num
  · norm_num
theorem prime_305873 : Nat.Prime 305873 := by
  refine pratt 305873 3 [2, 2, 2, 2, 7, 2731] ?_ (by decide +kernel) (by decide +kernel) (by decide +kernel) (by decide +kernel)
  intro q hq
  simp only [List.mem_cons, List.not_mem_nil, or_false] at hq
  rcases hq with rfl | rfl | rfl | rfl | rfl | rfl
  · norm_num
  · norm_num
  · norm_num
  · norm_num
  · norm_num
  · exact prime_2731
theorem prime_1409 : Nat.Prime 1409 := by
  refine pratt 1409 3 [2, 2, 2, 2, 2, 2, 2, 11] ?_ (by decide +kernel) (by decide +kernel) (by decide +kernel) (by decide +kernel)
  intro q hq
  simp only [List.mem_cons, List.not_mem_nil, or_false] at hq
  rcases hq with rfl | rfl | rfl | rfl | rfl | rfl | rfl | rfl
  · norm_num
  · norm_num
  · norm_num
  · norm_num
  · norm_num
  · norm_num
  · norm_num
  · norm_num
theorem prime_28181 : Nat.Prime 28181 := by
  refine pratt 28181 2 [2, 2, 5, 1409] ?_ (by decide +kernel) (by decide +kernel) (by decide +kernel) (by decide +kernel)
  intro q hq
  simp only [List.mem_cons, List.not_mem_nil, or_false] at hq
  rcases hq with rfl | rfl | rfl | rfl
  · norm_num
  · norm_num
  · norm_num
  · exact prime_1409
theorem prime_545358713 : Nat.Prime 545358713 := by
  refine pratt 545358713 5 [2, 2, 2, 41, 59, 28181] ?_ (by decide +kernel) (by decide +kernel) (by decide +kernel) (by decide +kernel)
  intro q hq
  simp only [List.mem_cons, List.not_mem_nil, or_false] at hq
  rcases hq with rfl | rfl | rfl | rfl | rfl | rfl
  · norm_num
  · norm_num
  · norm_num
  · norm_num
  · norm_num
  · exact prime_28181
theorem prime_461 : Nat.Prime 461 := by
  refine pratt 461 2 [2, 2, 5, 23] ?_ (by decide +kernel) (by decide +kernel) (by decide +kernel) (by decide +kernel)
  intro q hq
  simp only [List.mem_cons, List.not_mem_nil, or_false] at hq
  rcases hq with rfl | rfl | rfl | rfl
  · norm_num
  · norm_num
  · norm_num
  · norm_num
theorem prime_1871 : Nat.Prime 1871 := by
  refine pratt 1871 14 [2, 5, 11, 17] ?_ (by decide +kernel) (by decide +kernel) (by decide +kernel) (by decide +kernel)
  intro q hq
  simp only [List.mem_cons, List.not_mem_nil, or_false] at hq
  rcases hq with rfl | rfl | rfl | rfl
  · norm_num
  · norm_num
  · norm_num
  · norm_num
theorem prime_1627771 : Nat.Prime 1627771 := by
  refine pratt 1627771 3 [2, 3, 5, 29, 1871] ?_ (by decide +kernel) (by decide +kernel) (by decide +kernel) (by decide +kernel)
  intro q hq
  simp only [List.mem_cons, List.not_mem_nil, or_false] at hq
  rcases hq with rfl | rfl | rfl | rfl | rfl
  · norm_num
  · norm_num
  · norm_num
  · norm_num
  · exact prime_1871
theorem prime_297159362677 : Nat.Prime 297159362677 := by
  refine pratt 297159362677 2 [2, 2, 3, 3, 11, 461, 1627771] ?_ (by decide +kernel) (by decide +kernel) (by decide +kernel) (by decide +kernel)
  intro q hq
  simp only [List.mem_cons, List.not_mem_nil, or_false] at hq
  rcases hq with rfl | rfl | rfl | rfl | rfl | rfl | rfl
  · norm_num
  · norm_num
  · norm_num
  · norm_num
  · norm_num
  · exact prime_461
  · exact prime_1627771
theorem prime_29047611873442575647497758179 : Nat.Prime 29047611873442575647497758179 := by
  refine pratt 29047611873442575647497758179 2 [2, 293, 305873, 545358713, 297159362677] ?_ (by decide +kernel) (by decide +kernel) (by decide +kernel) (by decide +kernel)
  intro q hq
  simp only [List.mem_cons, List.not_mem_nil, or_false] at hq
  rcases hq with rfl | rfl | rfl | rfl | rfl
  · norm_num
  · norm_num
  · exact prime_305873
  · exact prime_545358713
  · exact prime_297159362677
theorem prime_341948486974166000522343609283189 : Nat.Prime 341948486974166000522343609283189 := by
  refine pratt 341948486974166000522343609283189 2 [2, 2, 3, 3, 3, 109, 29047611873442575647497758179] ?_ (by decide +kernel) (by decide +kernel) (by decide +kernel) (by decide +kernel)
  intro q hq
  simp only [List.mem_cons, List.not_mem_nil, or_false] at hq
  rcases hq with rfl | rfl | rfl | rfl | rfl | rfl | rfl
  · norm_num
  · norm_num
  · norm_num
  · norm_num
  · norm_num
  · norm_num
  · exact prime_29047611873442575647497758179
theorem prime_115792089237316195423570985008687907852837564279074904382605163141518161494337 : Nat.Prime 115792089237316195423570985008687907852837564279074904382605163141518161494337 := by
  refine pratt 115792089237316195423570985008687907852837564279074904382605163141518161494337 7 [2, 2, 2, 2, 2, 2, 3, 149, 631, 107361793816595537, 174723607534414371449, 341948486974166000522343609283189] ?_ (by decide +kernel) (by decide +kernel) (by decide +kernel) (by decide +kernel)
  intro q hq
  simp only [List.mem_cons, List.not_mem_nil, or_false] at hq
  rcases hq with rfl | rfl | rfl | rfl | rfl | rfl | rfl | rfl | rfl | rfl | rfl | rfl
  · norm_num
  · norm_num
  · norm_num
  · norm_num
  · norm_num
  · norm_num
  · norm_num
  · norm_num
  · exact prime_631
  · exact prime_107361793816595537
  · exact prime_174723607534414371449
  · exact prime_341948486974166000522343609283189

end Secp256k1
