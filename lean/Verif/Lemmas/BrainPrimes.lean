import Verif.Lemmas.Pratt
/-
  Certificates of primality of the primes of the standard curves (RFC 5639): the field sizes and the orders of the base points.
-/
namespace Kryptos.Pratt

theorem all_nil : ∀ q ∈ ([] : List Nat), q.Prime := by simp
theorem all_cons {a : Nat} {l : List Nat} (h : a.Prime) (hl : ∀ q ∈ l, q.Prime) : ∀ q ∈ a :: l, q.Prime := by
  intro q hq
  rcases List.mem_cons.1 hq with rfl | hq
  · exact h
  · exact hl q hq

theorem p2 : Nat.Prime 2 := by norm_num
theorem p3 : Nat.Prime 3 := by norm_num
theorem p5 : Nat.Prime 5 := by norm_num
theorem p7 : Nat.Prime 7 := by norm_num
theorem p11 : Nat.Prime 11 := by norm_num
theorem p13 : Nat.Prime 13 := by norm_num
theorem p17 : Nat.Prime 17 := by norm_num
theorem p19 : Nat.Prime 19 := by norm_num
theorem p23 : Nat.Prime 23 := by norm_num
theorem p29 : Nat.Prime 29 := by norm_num
theorem p31 : Nat.Prime 31 := by norm_num
theorem p37 : Nat.Prime 37 := by norm_num
theorem p41 : Nat.Prime 41 := by norm_num
theorem p43 : Nat.Prime 43 := by norm_num
theorem p47 : Nat.Prime 47 := by norm_num
theorem p53 : Nat.Prime 53 := by norm_num
theorem p59 : Nat.Prime 59 := by norm_num
theorem p61 : Nat.Prime 61 := by norm_num
theorem p67 : Nat.Prime 67 := by norm_num
theorem p71 : Nat.Prime 71 := by norm_num
theorem p73 : Nat.Prime 73 := by norm_num
theorem p79 : Nat.Prime 79 := by norm_num
theorem p83 : Nat.Prime 83 := by norm_num
theorem p89 : Nat.Prime 89 := by norm_num
theorem p97 : Nat.Prime 97 := by norm_num
theorem p101 : Nat.Prime 101 := by norm_num
theorem p103 : Nat.Prime 103 := by norm_num
theorem p109 : Nat.Prime 109 := by norm_num
theorem p113 : Nat.Prime 113 := by norm_num
theorem p127 : Nat.Prime 127 := by norm_num
theorem p131 : Nat.Prime 131 := by norm_num
theorem p137 : Nat.Prime 137 := by norm_num
theorem p139 : Nat.Prime 139 := by norm_num
theorem p149 : Nat.Prime 149 := by norm_num
theorem p173 : Nat.Prime 173 := by norm_num
theorem p179 : Nat.Prime 179 := by norm_num
theorem p181 : Nat.Prime 181 := by norm_num
theorem p191 : Nat.Prime 191 := by norm_num
theorem p199 : Nat.Prime 199 := by norm_num
theorem p211 : Nat.Prime 211 := by norm_num
theorem p223 : Nat.Prime 223 := by norm_num
theorem p227 : Nat.Prime 227 := by norm_num
theorem p233 : Nat.Prime 233 := by norm_num
theorem p239 : Nat.Prime 239 := by norm_num
theorem p241 : Nat.Prime 241 := by norm_num
theorem p251 : Nat.Prime 251 := by norm_num
theorem p257 : Nat.Prime 257 := by norm_num
theorem p271 : Nat.Prime 271 := by norm_num
theorem p277 : Nat.Prime 277 := by norm_num
theorem p281 : Nat.Prime 281 := by norm_num
theorem p283 : Nat.Prime 283 := by norm_num
theorem p293 : Nat.Prime 293 := by norm_num
theorem p311 : Nat.Prime 311 := by norm_num
theorem p317 : Nat.Prime 317 := by norm_num
theorem p337 : Nat.Prime 337 := by norm_num
theorem p347 : Nat.Prime 347 := by norm_num
theorem p349 : Nat.Prime 349 := by norm_num
theorem p367 : Nat.Prime 367 := by norm_num
theorem p409 : Nat.Prime 409 := by norm_num
theorem p431 : Nat.Prime 431 := by norm_num
theorem p449 : Nat.Prime 449 := by norm_num
theorem p479 : Nat.Prime 479 := by norm_num
theorem p503 : Nat.Prime 503 := by norm_num
theorem p521 : Nat.Prime 521 := by norm_num
theorem p571 : Nat.Prime 571 := by norm_num
theorem p577 : Nat.Prime 577 := by norm_num
theorem p607 : Nat.Prime 607 := by norm_num
theorem p617 : Nat.Prime 617 := by norm_num
theorem p647 : Nat.Prime 647 := by norm_num
theorem p653 : Nat.Prime 653 := by norm_num
theorem p829 : Nat.Prime 829 := by norm_num
theorem p887 : Nat.Prime 887 := by norm_num
theorem p1031 : Nat.Prime 1031 := by norm_num
theorem p1049 : Nat.Prime 1049 := by norm_num
theorem p1091 : Nat.Prime 1091 := by norm_num
theorem p1093 : Nat.Prime 1093 := by norm_num
theorem p1103 : Nat.Prime 1103 := by norm_num
theorem p1229 : Nat.Prime 1229 := by norm_num
theorem p1423 : Nat.Prime 1423 := by norm_num
theorem p1427 : Nat.Prime 1427 := by norm_num
theorem p1543 : Nat.Prime 1543 := by norm_num
theorem p1559 : Nat.Prime 1559 := by norm_num
theorem p1571 : Nat.Prime 1571 := by norm_num
theorem p1601 : Nat.Prime 1601 := by norm_num
theorem p1609 : Nat.Prime 1609 := by norm_num
theorem p1667 : Nat.Prime 1667 := by norm_num
theorem p1709 : Nat.Prime 1709 := by norm_num
theorem p1783 : Nat.Prime 1783 := by norm_num
theorem p1867 : Nat.Prime 1867 := by norm_num
theorem p1889 : Nat.Prime 1889 := by norm_num
theorem p1913 : Nat.Prime 1913 := by norm_num
theorem p1933 : Nat.Prime 1933 := by norm_num
theorem p1999 : Nat.Prime 1999 := by norm_num
theorem p2029 : Nat.Prime 2029 := by norm_num
theorem p2083 : Nat.Prime 2083 := by norm_num
theorem p2293 : Nat.Prime 2293 := by norm_num
theorem p2377 : Nat.Prime 2377 := by norm_num
theorem p2393 : Nat.Prime 2393 := by norm_num
theorem p2543 : Nat.Prime 2543 := by norm_num
theorem p2593 : Nat.Prime 2593 := by norm_num
theorem p2647 : Nat.Prime 2647 := by norm_num
theorem p2713 : Nat.Prime 2713 := by norm_num
theorem p2729 : Nat.Prime 2729 := by norm_num
theorem p2777 : Nat.Prime 2777 := by norm_num
theorem p2851 : Nat.Prime 2851 := by norm_num
theorem p2887 : Nat.Prime 2887 := by norm_num
theorem p3083 : Nat.Prime 3083 := by norm_num
theorem p3257 : Nat.Prime 3257 := by norm_num
theorem p3347 : Nat.Prime 3347 := by norm_num
theorem p3559 : Nat.Prime 3559 := by norm_num
theorem p3571 : Nat.Prime 3571 := by norm_num
theorem p3607 : Nat.Prime 3607 := by norm_num
theorem p3691 : Nat.Prime 3691 := by norm_num
theorem p3877 : Nat.Prime 3877 := by norm_num
theorem p3943 : Nat.Prime 3943 := by norm_num
theorem p4021 : Nat.Prime 4021 := by norm_num
theorem p4093 : Nat.Prime 4093 := by norm_num
theorem p4273 : Nat.Prime 4273 := by norm_num
theorem p4289 : Nat.Prime 4289 := by norm_num
theorem p4391 : Nat.Prime 4391 := by norm_num
theorem p4649 : Nat.Prime 4649 := by norm_num
theorem p5431 : Nat.Prime 5431 := by norm_num
theorem p5717 : Nat.Prime 5717 := by norm_num
theorem p5743 : Nat.Prime 5743 := by norm_num
theorem p5827 : Nat.Prime 5827 := by norm_num
theorem p6553 : Nat.Prime 6553 := by norm_num
theorem p6947 : Nat.Prime 6947 := by norm_num
theorem p6959 : Nat.Prime 6959 := by norm_num
theorem p6997 : Nat.Prime 6997 := by norm_num
theorem p7457 : Nat.Prime 7457 := by norm_num
theorem p7853 : Nat.Prime 7853 := by norm_num
theorem p8039 : Nat.Prime 8039 := by norm_num
theorem p8311 : Nat.Prime 8311 := by norm_num
theorem p9311 : Nat.Prime 9311 := by norm_num
theorem p9341 : Nat.Prime 9341 := by norm_num
theorem p10453 : Nat.Prime 10453 := by norm_num
theorem p10837 : Nat.Prime 10837 := by norm_num
theorem p11393 : Nat.Prime 11393 := by norm_num
theorem p11801 : Nat.Prime 11801 := by norm_num
theorem p13309 : Nat.Prime 13309 := by norm_num
theorem p14081 : Nat.Prime 14081 := by norm_num
theorem p14557 : Nat.Prime 14557 := by norm_num
theorem p15511 : Nat.Prime 15511 := by norm_num
theorem p18947 : Nat.Prime 18947 := by norm_num
theorem p19009 : Nat.Prime 19009 := by norm_num
theorem p19543 : Nat.Prime 19543 := by norm_num
theorem p21107 : Nat.Prime 21107 := by norm_num
theorem p21143 : Nat.Prime 21143 := by norm_num
theorem p22367 : Nat.Prime 22367 := by norm_num
theorem p22709 : Nat.Prime 22709 := by norm_num
theorem p23561 : Nat.Prime 23561 := by norm_num
theorem p24379 : Nat.Prime 24379 := by norm_num
theorem p24841 : Nat.Prime 24841 := by norm_num
theorem p25951 : Nat.Prime 25951 := by norm_num
theorem p26293 : Nat.Prime 26293 := by norm_num
theorem p28057 : Nat.Prime 28057 := by norm_num
theorem p28513 : Nat.Prime 28513 := by norm_num
theorem p28661 : Nat.Prime 28661 := by norm_num
theorem p28817 : Nat.Prime 28817 := by norm_num
theorem p29077 : Nat.Prime 29077 := by norm_num
theorem p32533 : Nat.Prime 32533 := by norm_num
theorem p36587 : Nat.Prime 36587 := by norm_num
theorem p37657 : Nat.Prime 37657 := by norm_num
theorem p37967 : Nat.Prime 37967 := by norm_num
theorem p39251 : Nat.Prime 39251 := by norm_num
theorem p40129 : Nat.Prime 40129 := by norm_num
theorem p41539 : Nat.Prime 41539 := by norm_num
theorem p42257 : Nat.Prime 42257 := by norm_num
theorem p43397 : Nat.Prime 43397 := by norm_num
theorem p44029 : Nat.Prime 44029 := by norm_num
theorem p50123 : Nat.Prime 50123 := by norm_num
theorem p50993 : Nat.Prime 50993 := by norm_num
theorem p55799 : Nat.Prime 55799 := by norm_num
theorem p57527 : Nat.Prime 57527 := by norm_num
theorem p57571 : Nat.Prime 57571 := by norm_num
theorem p60901 : Nat.Prime 60901 := by norm_num
theorem p95959 : Nat.Prime 95959 := by norm_num
theorem p97151 : Nat.Prime 97151 := by norm_num
theorem p100483 : Nat.Prime 100483 := by norm_num
theorem p101267 : Nat.Prime 101267 := by norm_num
theorem p109267 : Nat.Prime 109267 := by norm_num
theorem p114799 : Nat.Prime 114799 := by norm_num
theorem p119087 : Nat.Prime 119087 := by norm_num
theorem p128347 : Nat.Prime 128347 := by norm_num
theorem p137341 : Nat.Prime 137341 := by norm_num
theorem p149459 : Nat.Prime 149459 := by norm_num
theorem p157427 : Nat.Prime 157427 := by norm_num
theorem p173359 : Nat.Prime 173359 := by norm_num
theorem p174197 : Nat.Prime 174197 := by norm_num
theorem p196907 : Nat.Prime 196907 := by norm_num
theorem p197033 : Nat.Prime 197033 := by norm_num
theorem p216841 : Nat.Prime 216841 := by norm_num
theorem p236713 : Nat.Prime 236713 := by norm_num
theorem p245621 : Nat.Prime 245621 := by norm_num
theorem p324661 : Nat.Prime 324661 := by norm_num
theorem p436529 : Nat.Prime 436529 := by norm_num
theorem p440717 : Nat.Prime 440717 := by norm_num
theorem p476647 : Nat.Prime 476647 := by norm_num
theorem p513157 : Nat.Prime 513157 := by norm_num
theorem p516521 : Nat.Prime 516521 := by norm_num
theorem p546677 : Nat.Prime 546677 := by norm_num
theorem p678757 : Nat.Prime 678757 := by norm_num
theorem p733459 : Nat.Prime 733459 := by norm_num
theorem p734647 : Nat.Prime 734647 := by norm_num
theorem p750487 : Nat.Prime 750487 := by norm_num
theorem p819989 : Nat.Prime 819989 := by norm_num
theorem p858397 : Nat.Prime 858397 := by norm_num
theorem p868583 : Nat.Prime 868583 := by norm_num
theorem p885503 : Nat.Prime 885503 := by norm_num
theorem p921589 : Nat.Prime 921589 := by norm_num
theorem p991057 : Nat.Prime 991057 := by norm_num

theorem p28988353957 : Nat.Prime 28988353957 :=
  pratt _ 6 35 [2, 2, 3, 3559, 678757]
    (all_cons p2 (all_cons p2 (all_cons p3 (all_cons p3559 (all_cons p678757 all_nil)))))
    (by decide +kernel) (by decide +kernel) (by decide +kernel) (by decide +kernel) (by decide +kernel)
theorem p82977018063719683 : Nat.Prime 82977018063719683 :=
  pratt _ 2 57 [2, 3, 7, 17, 19, 211, 28988353957]
    (all_cons p2 (all_cons p3 (all_cons p7 (all_cons p17 (all_cons p19 (all_cons p211 (all_cons p28988353957 all_nil)))))))
    (by decide +kernel) (by decide +kernel) (by decide +kernel) (by decide +kernel) (by decide +kernel)
theorem p23572567 : Nat.Prime 23572567 :=
  pratt _ 5 25 [2, 3, 3, 3, 436529]
    (all_cons p2 (all_cons p3 (all_cons p3 (all_cons p3 (all_cons p436529 all_nil)))))
    (by decide +kernel) (by decide +kernel) (by decide +kernel) (by decide +kernel) (by decide +kernel)
theorem p13355798429 : Nat.Prime 13355798429 :=
  pratt _ 3 34 [2, 2, 7, 47, 101, 100483]
    (all_cons p2 (all_cons p2 (all_cons p7 (all_cons p47 (all_cons p101 (all_cons p100483 all_nil))))))
    (by decide +kernel) (by decide +kernel) (by decide +kernel) (by decide +kernel) (by decide +kernel)
theorem p136095069548351808925828417 : Nat.Prime 136095069548351808925828417 :=
  pratt _ 5 87 [2, 2, 2, 2, 2, 2, 3, 3, 750487, 23572567, 13355798429]
    (all_cons p2 (all_cons p2 (all_cons p2 (all_cons p2 (all_cons p2 (all_cons p2 (all_cons p3 (all_cons p3 (all_cons p750487 (all_cons p23572567 (all_cons p13355798429 all_nil)))))))))))
    (by decide +kernel) (by decide +kernel) (by decide +kernel) (by decide +kernel) (by decide +kernel)
theorem p1332297598440044874827085558802491743757193798159 : Nat.Prime 1332297598440044874827085558802491743757193798159 :=
  pratt _ 3 160 [2, 3, 7, 53, 53, 82977018063719683, 136095069548351808925828417]
    (all_cons p2 (all_cons p3 (all_cons p7 (all_cons p53 (all_cons p53 (all_cons p82977018063719683 (all_cons p136095069548351808925828417 all_nil)))))))
    (by decide +kernel) (by decide +kernel) (by decide +kernel) (by decide +kernel) (by decide +kernel)
theorem p2745161 : Nat.Prime 2745161 :=
  pratt _ 3 22 [2, 2, 2, 5, 11, 17, 367]
    (all_cons p2 (all_cons p2 (all_cons p2 (all_cons p5 (all_cons p11 (all_cons p17 (all_cons p367 all_nil)))))))
    (by decide +kernel) (by decide +kernel) (by decide +kernel) (by decide +kernel) (by decide +kernel)
theorem p3244753 : Nat.Prime 3244753 :=
  pratt _ 10 22 [2, 2, 2, 2, 3, 3, 3, 7, 29, 37]
    (all_cons p2 (all_cons p2 (all_cons p2 (all_cons p2 (all_cons p3 (all_cons p3 (all_cons p3 (all_cons p7 (all_cons p29 (all_cons p37 all_nil))))))))))
    (by decide +kernel) (by decide +kernel) (by decide +kernel) (by decide +kernel) (by decide +kernel)
theorem p181657579 : Nat.Prime 181657579 :=
  pratt _ 11 28 [2, 3, 59, 513157]
    (all_cons p2 (all_cons p3 (all_cons p59 (all_cons p513157 all_nil))))
    (by decide +kernel) (by decide +kernel) (by decide +kernel) (by decide +kernel) (by decide +kernel)
theorem p72663031601 : Nat.Prime 72663031601 :=
  pratt _ 3 37 [2, 2, 2, 2, 5, 5, 181657579]
    (all_cons p2 (all_cons p2 (all_cons p2 (all_cons p2 (all_cons p5 (all_cons p5 (all_cons p181657579 all_nil)))))))
    (by decide +kernel) (by decide +kernel) (by decide +kernel) (by decide +kernel) (by decide +kernel)
theorem p623188451 : Nat.Prime 623188451 :=
  pratt _ 2 30 [2, 5, 5, 23, 23, 23561]
    (all_cons p2 (all_cons p5 (all_cons p5 (all_cons p23 (all_cons p23 (all_cons p23561 all_nil))))))
    (by decide +kernel) (by decide +kernel) (by decide +kernel) (by decide +kernel) (by decide +kernel)
theorem p2465333512157 : Nat.Prime 2465333512157 :=
  pratt _ 2 42 [2, 2, 23, 43, 623188451]
    (all_cons p2 (all_cons p2 (all_cons p23 (all_cons p43 (all_cons p623188451 all_nil)))))
    (by decide +kernel) (by decide +kernel) (by decide +kernel) (by decide +kernel) (by decide +kernel)
theorem p1332297598440044874827085038830181364212942568457 : Nat.Prime 1332297598440044874827085038830181364212942568457 :=
  pratt _ 5 160 [2, 2, 2, 3, 83, 1933, 216841, 2745161, 3244753, 72663031601, 2465333512157]
    (all_cons p2 (all_cons p2 (all_cons p2 (all_cons p3 (all_cons p83 (all_cons p1933 (all_cons p216841 (all_cons p2745161 (all_cons p3244753 (all_cons p72663031601 (all_cons p2465333512157 all_nil)))))))))))
    (by decide +kernel) (by decide +kernel) (by decide +kernel) (by decide +kernel) (by decide +kernel)
theorem p210497226743 : Nat.Prime 210497226743 :=
  pratt _ 5 38 [2, 11, 11, 11, 73, 233, 4649]
    (all_cons p2 (all_cons p11 (all_cons p11 (all_cons p11 (all_cons p73 (all_cons p233 (all_cons p4649 all_nil)))))))
    (by decide +kernel) (by decide +kernel) (by decide +kernel) (by decide +kernel) (by decide +kernel)
theorem p4517359736728919033 : Nat.Prime 4517359736728919033 :=
  pratt _ 3 62 [2, 2, 2, 19, 59, 2393, 210497226743]
    (all_cons p2 (all_cons p2 (all_cons p2 (all_cons p19 (all_cons p59 (all_cons p2393 (all_cons p210497226743 all_nil)))))))
    (by decide +kernel) (by decide +kernel) (by decide +kernel) (by decide +kernel) (by decide +kernel)
theorem p111604895836482593267110741 : Nat.Prime 111604895836482593267110741 :=
  pratt _ 2 87 [2, 2, 3, 5, 11, 11, 41, 83, 4517359736728919033]
    (all_cons p2 (all_cons p2 (all_cons p3 (all_cons p5 (all_cons p11 (all_cons p11 (all_cons p41 (all_cons p83 (all_cons p4517359736728919033 all_nil)))))))))
    (by decide +kernel) (by decide +kernel) (by decide +kernel) (by decide +kernel) (by decide +kernel)
theorem p16387518143 : Nat.Prime 16387518143 :=
  pratt _ 5 34 [2, 97, 1999, 42257]
    (all_cons p2 (all_cons p97 (all_cons p1999 (all_cons p42257 all_nil))))
    (by decide +kernel) (by decide +kernel) (by decide +kernel) (by decide +kernel) (by decide +kernel)
theorem p2218130291019312052925190546351456293022253 : Nat.Prime 2218130291019312052925190546351456293022253 :=
  pratt _ 2 141 [2, 2, 3, 3, 59, 571, 16387518143, 111604895836482593267110741]
    (all_cons p2 (all_cons p2 (all_cons p3 (all_cons p3 (all_cons p59 (all_cons p571 (all_cons p16387518143 (all_cons p111604895836482593267110741 all_nil))))))))
    (by decide +kernel) (by decide +kernel) (by decide +kernel) (by decide +kernel) (by decide +kernel)
theorem p327505609 : Nat.Prime 327505609 :=
  pratt _ 11 29 [2, 2, 2, 3, 3, 173, 26293]
    (all_cons p2 (all_cons p2 (all_cons p2 (all_cons p3 (all_cons p3 (all_cons p173 (all_cons p26293 all_nil)))))))
    (by decide +kernel) (by decide +kernel) (by decide +kernel) (by decide +kernel) (by decide +kernel)
theorem p5132667904249 : Nat.Prime 5132667904249 :=
  pratt _ 11 43 [2, 2, 2, 3, 653, 327505609]
    (all_cons p2 (all_cons p2 (all_cons p2 (all_cons p3 (all_cons p653 (all_cons p327505609 all_nil))))))
    (by decide +kernel) (by decide +kernel) (by decide +kernel) (by decide +kernel) (by decide +kernel)
theorem p51326679042491 : Nat.Prime 51326679042491 :=
  pratt _ 2 46 [2, 5, 5132667904249]
    (all_cons p2 (all_cons p5 (all_cons p5132667904249 all_nil)))
    (by decide +kernel) (by decide +kernel) (by decide +kernel) (by decide +kernel) (by decide +kernel)
theorem p4781668983906166242955001894344923773259119655253013193367 : Nat.Prime 4781668983906166242955001894344923773259119655253013193367 :=
  pratt _ 7 192 [2, 3, 7, 51326679042491, 2218130291019312052925190546351456293022253]
    (all_cons p2 (all_cons p3 (all_cons p7 (all_cons p51326679042491 (all_cons p2218130291019312052925190546351456293022253 all_nil)))))
    (by decide +kernel) (by decide +kernel) (by decide +kernel) (by decide +kernel) (by decide +kernel)
theorem p3151945627 : Nat.Prime 3151945627 :=
  pratt _ 2 32 [2, 3, 4093, 128347]
    (all_cons p2 (all_cons p3 (all_cons p4093 (all_cons p128347 all_nil))))
    (by decide +kernel) (by decide +kernel) (by decide +kernel) (by decide +kernel) (by decide +kernel)
theorem p15507364456428619 : Nat.Prime 15507364456428619 :=
  pratt _ 2 54 [2, 3, 819989, 3151945627]
    (all_cons p2 (all_cons p3 (all_cons p819989 (all_cons p3151945627 all_nil))))
    (by decide +kernel) (by decide +kernel) (by decide +kernel) (by decide +kernel) (by decide +kernel)
theorem p13609004849343556497893651 : Nat.Prime 13609004849343556497893651 :=
  pratt _ 2 84 [2, 5, 5, 7, 17, 79, 1867, 15507364456428619]
    (all_cons p2 (all_cons p5 (all_cons p5 (all_cons p7 (all_cons p17 (all_cons p79 (all_cons p1867 (all_cons p15507364456428619 all_nil))))))))
    (by decide +kernel) (by decide +kernel) (by decide +kernel) (by decide +kernel) (by decide +kernel)
theorem p3140317 : Nat.Prime 3140317 :=
  pratt _ 2 22 [2, 2, 3, 3, 3, 29077]
    (all_cons p2 (all_cons p2 (all_cons p3 (all_cons p3 (all_cons p3 (all_cons p29077 all_nil))))))
    (by decide +kernel) (by decide +kernel) (by decide +kernel) (by decide +kernel) (by decide +kernel)
theorem p7536774961 : Nat.Prime 7536774961 :=
  pratt _ 17 33 [2, 2, 2, 2, 3, 3, 5, 11, 13, 71, 1031]
    (all_cons p2 (all_cons p2 (all_cons p2 (all_cons p2 (all_cons p3 (all_cons p3 (all_cons p5 (all_cons p11 (all_cons p13 (all_cons p71 (all_cons p1031 all_nil)))))))))))
    (by decide +kernel) (by decide +kernel) (by decide +kernel) (by decide +kernel) (by decide +kernel)
theorem p107647262337333555283688982427 : Nat.Prime 107647262337333555283688982427 :=
  pratt _ 2 97 [2, 3, 7, 7, 29, 83, 1103, 5827, 3140317, 7536774961]
    (all_cons p2 (all_cons p3 (all_cons p7 (all_cons p7 (all_cons p29 (all_cons p83 (all_cons p1103 (all_cons p5827 (all_cons p3140317 (all_cons p7536774961 all_nil))))))))))
    (by decide +kernel) (by decide +kernel) (by decide +kernel) (by decide +kernel) (by decide +kernel)
theorem p4781668983906166242955001894269038308119863659119834868929 : Nat.Prime 4781668983906166242955001894269038308119863659119834868929 :=
  pratt _ 7 192 [2, 2, 2, 2, 2, 2, 3, 17, 13609004849343556497893651, 107647262337333555283688982427]
    (all_cons p2 (all_cons p2 (all_cons p2 (all_cons p2 (all_cons p2 (all_cons p2 (all_cons p3 (all_cons p17 (all_cons p13609004849343556497893651 (all_cons p107647262337333555283688982427 all_nil))))))))))
    (by decide +kernel) (by decide +kernel) (by decide +kernel) (by decide +kernel) (by decide +kernel)
theorem p1322801685354439 : Nat.Prime 1322801685354439 :=
  pratt _ 3 51 [2, 3, 3, 139, 211, 449, 1933, 2887]
    (all_cons p2 (all_cons p3 (all_cons p3 (all_cons p139 (all_cons p211 (all_cons p449 (all_cons p1933 (all_cons p2887 all_nil))))))))
    (by decide +kernel) (by decide +kernel) (by decide +kernel) (by decide +kernel) (by decide +kernel)
theorem p2203433 : Nat.Prime 2203433 :=
  pratt _ 3 22 [2, 2, 2, 7, 7, 7, 11, 73]
    (all_cons p2 (all_cons p2 (all_cons p2 (all_cons p7 (all_cons p7 (all_cons p7 (all_cons p11 (all_cons p73 all_nil))))))))
    (by decide +kernel) (by decide +kernel) (by decide +kernel) (by decide +kernel) (by decide +kernel)
theorem p1942793987 : Nat.Prime 1942793987 :=
  pratt _ 2 31 [2, 7, 137, 311, 3257]
    (all_cons p2 (all_cons p7 (all_cons p137 (all_cons p311 (all_cons p3257 all_nil)))))
    (by decide +kernel) (by decide +kernel) (by decide +kernel) (by decide +kernel) (by decide +kernel)
theorem p273564821309471 : Nat.Prime 273564821309471 :=
  pratt _ 23 48 [2, 5, 14081, 1942793987]
    (all_cons p2 (all_cons p5 (all_cons p14081 (all_cons p1942793987 all_nil))))
    (by decide +kernel) (by decide +kernel) (by decide +kernel) (by decide +kernel) (by decide +kernel)
theorem p18114915337470550679 : Nat.Prime 18114915337470550679 :=
  pratt _ 11 64 [2, 113, 293, 273564821309471]
    (all_cons p2 (all_cons p113 (all_cons p293 (all_cons p273564821309471 all_nil))))
    (by decide +kernel) (by decide +kernel) (by decide +kernel) (by decide +kernel) (by decide +kernel)
theorem p1685556642320959799579593 : Nat.Prime 1685556642320959799579593 :=
  pratt _ 7 81 [2, 2, 2, 3, 3877, 18114915337470550679]
    (all_cons p2 (all_cons p2 (all_cons p2 (all_cons p3 (all_cons p3877 (all_cons p18114915337470550679 all_nil))))))
    (by decide +kernel) (by decide +kernel) (by decide +kernel) (by decide +kernel) (by decide +kernel)
theorem p13036179062997789943375385313119191 : Nat.Prime 13036179062997789943375385313119191 :=
  pratt _ 15 114 [2, 3, 3, 3, 5, 13, 2203433, 1685556642320959799579593]
    (all_cons p2 (all_cons p3 (all_cons p3 (all_cons p3 (all_cons p5 (all_cons p13 (all_cons p2203433 (all_cons p1685556642320959799579593 all_nil))))))))
    (by decide +kernel) (by decide +kernel) (by decide +kernel) (by decide +kernel) (by decide +kernel)
theorem p22721622932454352787552537995910928073340732145944992304435472941311 : Nat.Prime 22721622932454352787552537995910928073340732145944992304435472941311 :=
  pratt _ 3 224 [2, 3, 3, 3, 5, 11, 89, 257, 1091, 2713, 6553, 1322801685354439, 13036179062997789943375385313119191]
    (all_cons p2 (all_cons p3 (all_cons p3 (all_cons p3 (all_cons p5 (all_cons p11 (all_cons p89 (all_cons p257 (all_cons p1091 (all_cons p2713 (all_cons p6553 (all_cons p1322801685354439 (all_cons p13036179062997789943375385313119191 all_nil)))))))))))))
    (by decide +kernel) (by decide +kernel) (by decide +kernel) (by decide +kernel) (by decide +kernel)
theorem p9478738254589 : Nat.Prime 9478738254589 :=
  pratt _ 2 44 [2, 2, 3, 31, 103, 1427, 173359]
    (all_cons p2 (all_cons p2 (all_cons p3 (all_cons p31 (all_cons p103 (all_cons p1427 (all_cons p173359 all_nil)))))))
    (by decide +kernel) (by decide +kernel) (by decide +kernel) (by decide +kernel) (by decide +kernel)
theorem p37901663 : Nat.Prime 37901663 :=
  pratt _ 5 26 [2, 43, 440717]
    (all_cons p2 (all_cons p43 (all_cons p440717 all_nil)))
    (by decide +kernel) (by decide +kernel) (by decide +kernel) (by decide +kernel) (by decide +kernel)
theorem p73831150867459 : Nat.Prime 73831150867459 :=
  pratt _ 2 47 [2, 3, 324661, 37901663]
    (all_cons p2 (all_cons p3 (all_cons p324661 (all_cons p37901663 all_nil))))
    (by decide +kernel) (by decide +kernel) (by decide +kernel) (by decide +kernel) (by decide +kernel)
theorem p806539990497420485986591867 : Nat.Prime 806539990497420485986591867 :=
  pratt _ 2 90 [2, 3, 67, 114799, 236713, 73831150867459]
    (all_cons p2 (all_cons p3 (all_cons p67 (all_cons p114799 (all_cons p236713 (all_cons p73831150867459 all_nil))))))
    (by decide +kernel) (by decide +kernel) (by decide +kernel) (by decide +kernel) (by decide +kernel)
theorem p8065399904974204859865918671 : Nat.Prime 8065399904974204859865918671 :=
  pratt _ 13 93 [2, 5, 806539990497420485986591867]
    (all_cons p2 (all_cons p5 (all_cons p806539990497420485986591867 all_nil)))
    (by decide +kernel) (by decide +kernel) (by decide +kernel) (by decide +kernel) (by decide +kernel)
theorem p983978788406852992903642077863 : Nat.Prime 983978788406852992903642077863 :=
  pratt _ 5 100 [2, 61, 8065399904974204859865918671]
    (all_cons p2 (all_cons p61 (all_cons p8065399904974204859865918671 all_nil)))
    (by decide +kernel) (by decide +kernel) (by decide +kernel) (by decide +kernel) (by decide +kernel)
theorem p1161088527226980043552900118830014153077 : Nat.Prime 1161088527226980043552900118830014153077 :=
  pratt _ 2 130 [2, 2, 11, 11, 109, 22367, 983978788406852992903642077863]
    (all_cons p2 (all_cons p2 (all_cons p11 (all_cons p11 (all_cons p109 (all_cons p22367 (all_cons p983978788406852992903642077863 all_nil)))))))
    (by decide +kernel) (by decide +kernel) (by decide +kernel) (by decide +kernel) (by decide +kernel)
theorem p1990826783253337021526517590177438885463180347771 : Nat.Prime 1990826783253337021526517590177438885463180347771 :=
  pratt _ 2 161 [2, 5, 131, 241, 5431, 1161088527226980043552900118830014153077]
    (all_cons p2 (all_cons p5 (all_cons p131 (all_cons p241 (all_cons p5431 (all_cons p1161088527226980043552900118830014153077 all_nil))))))
    (by decide +kernel) (by decide +kernel) (by decide +kernel) (by decide +kernel) (by decide +kernel)
theorem p21889810146873172242343485545193568027521720946368744885738498041 : Nat.Prime 21889810146873172242343485545193568027521720946368744885738498041 :=
  pratt _ 3 214 [2, 2, 2, 5, 29, 9478738254589, 1990826783253337021526517590177438885463180347771]
    (all_cons p2 (all_cons p2 (all_cons p2 (all_cons p5 (all_cons p29 (all_cons p9478738254589 (all_cons p1990826783253337021526517590177438885463180347771 all_nil)))))))
    (by decide +kernel) (by decide +kernel) (by decide +kernel) (by decide +kernel) (by decide +kernel)
theorem p22721622932454352787552537995910923612567546342330757191396560966559 : Nat.Prime 22721622932454352787552537995910923612567546342330757191396560966559 :=
  pratt _ 3 224 [2, 3, 173, 21889810146873172242343485545193568027521720946368744885738498041]
    (all_cons p2 (all_cons p3 (all_cons p173 (all_cons p21889810146873172242343485545193568027521720946368744885738498041 all_nil))))
    (by decide +kernel) (by decide +kernel) (by decide +kernel) (by decide +kernel) (by decide +kernel)
theorem p17543087 : Nat.Prime 17543087 :=
  pratt _ 5 25 [2, 11, 29, 31, 887]
    (all_cons p2 (all_cons p11 (all_cons p29 (all_cons p31 (all_cons p887 all_nil)))))
    (by decide +kernel) (by decide +kernel) (by decide +kernel) (by decide +kernel) (by decide +kernel)
theorem p10434257 : Nat.Prime 10434257 :=
  pratt _ 3 24 [2, 2, 2, 2, 7, 7, 13309]
    (all_cons p2 (all_cons p2 (all_cons p2 (all_cons p2 (all_cons p7 (all_cons p7 (all_cons p13309 all_nil)))))))
    (by decide +kernel) (by decide +kernel) (by decide +kernel) (by decide +kernel) (by decide +kernel)
theorem p187816627 : Nat.Prime 187816627 :=
  pratt _ 2 28 [2, 3, 3, 10434257]
    (all_cons p2 (all_cons p3 (all_cons p3 (all_cons p10434257 all_nil))))
    (by decide +kernel) (by decide +kernel) (by decide +kernel) (by decide +kernel) (by decide +kernel)
theorem p3686357 : Nat.Prime 3686357 :=
  pratt _ 2 22 [2, 2, 921589]
    (all_cons p2 (all_cons p2 (all_cons p921589 all_nil)))
    (by decide +kernel) (by decide +kernel) (by decide +kernel) (by decide +kernel) (by decide +kernel)
theorem p719569513687 : Nat.Prime 719569513687 :=
  pratt _ 3 40 [2, 3, 32533, 3686357]
    (all_cons p2 (all_cons p3 (all_cons p32533 (all_cons p3686357 all_nil))))
    (by decide +kernel) (by decide +kernel) (by decide +kernel) (by decide +kernel) (by decide +kernel)
theorem p151499460061 : Nat.Prime 151499460061 :=
  pratt _ 2 38 [2, 2, 3, 3, 5, 13, 2851, 22709]
    (all_cons p2 (all_cons p2 (all_cons p3 (all_cons p3 (all_cons p5 (all_cons p13 (all_cons p2851 (all_cons p22709 all_nil))))))))
    (by decide +kernel) (by decide +kernel) (by decide +kernel) (by decide +kernel) (by decide +kernel)
theorem p49712609355733181957277501974736893 : Nat.Prime 49712609355733181957277501974736893 :=
  pratt _ 2 116 [2, 2, 607, 187816627, 151499460061, 719569513687]
    (all_cons p2 (all_cons p2 (all_cons p607 (all_cons p187816627 (all_cons p151499460061 (all_cons p719569513687 all_nil))))))
    (by decide +kernel) (by decide +kernel) (by decide +kernel) (by decide +kernel) (by decide +kernel)
theorem p25659209 : Nat.Prime 25659209 :=
  pratt _ 3 25 [2, 2, 2, 53, 73, 829]
    (all_cons p2 (all_cons p2 (all_cons p2 (all_cons p53 (all_cons p73 (all_cons p829 all_nil))))))
    (by decide +kernel) (by decide +kernel) (by decide +kernel) (by decide +kernel) (by decide +kernel)
theorem p1139592334882447158893 : Nat.Prime 1139592334882447158893 :=
  pratt _ 2 70 [2, 2, 1609, 8039, 858397, 25659209]
    (all_cons p2 (all_cons p2 (all_cons p1609 (all_cons p8039 (all_cons p858397 (all_cons p25659209 all_nil))))))
    (by decide +kernel) (by decide +kernel) (by decide +kernel) (by decide +kernel) (by decide +kernel)
theorem p3059213862715144055733503214373292934438943635608167530247 : Nat.Prime 3059213862715144055733503214373292934438943635608167530247 :=
  pratt _ 5 191 [2, 3, 3, 3, 1139592334882447158893, 49712609355733181957277501974736893]
    (all_cons p2 (all_cons p3 (all_cons p3 (all_cons p3 (all_cons p1139592334882447158893 (all_cons p49712609355733181957277501974736893 all_nil))))))
    (by decide +kernel) (by decide +kernel) (by decide +kernel) (by decide +kernel) (by decide +kernel)
theorem p76884956397045344220809746629001649093037950200943055203735601445031516197751 : Nat.Prime 76884956397045344220809746629001649093037950200943055203735601445031516197751 :=
  pratt _ 11 256 [2, 5, 5, 5, 23, 1667, 149459, 17543087, 3059213862715144055733503214373292934438943635608167530247]
    (all_cons p2 (all_cons p5 (all_cons p5 (all_cons p5 (all_cons p23 (all_cons p1667 (all_cons p149459 (all_cons p17543087 (all_cons p3059213862715144055733503214373292934438943635608167530247 all_nil)))))))))
    (by decide +kernel) (by decide +kernel) (by decide +kernel) (by decide +kernel) (by decide +kernel)
theorem p41802583 : Nat.Prime 41802583 :=
  pratt _ 3 26 [2, 3, 139, 50123]
    (all_cons p2 (all_cons p3 (all_cons p139 (all_cons p50123 all_nil))))
    (by decide +kernel) (by decide +kernel) (by decide +kernel) (by decide +kernel) (by decide +kernel)
theorem p1674656872585139 : Nat.Prime 1674656872585139 :=
  pratt _ 2 51 [2, 13, 73, 21107, 41802583]
    (all_cons p2 (all_cons p13 (all_cons p73 (all_cons p21107 (all_cons p41802583 all_nil)))))
    (by decide +kernel) (by decide +kernel) (by decide +kernel) (by decide +kernel) (by decide +kernel)
theorem p190455129210693390224369129 : Nat.Prime 190455129210693390224369129 :=
  pratt _ 3 88 [2, 2, 2, 17, 23, 23, 31, 50993, 1674656872585139]
    (all_cons p2 (all_cons p2 (all_cons p2 (all_cons p17 (all_cons p23 (all_cons p23 (all_cons p31 (all_cons p50993 (all_cons p1674656872585139 all_nil)))))))))
    (by decide +kernel) (by decide +kernel) (by decide +kernel) (by decide +kernel) (by decide +kernel)
theorem p757986407 : Nat.Prime 757986407 :=
  pratt _ 5 30 [2, 1543, 245621]
    (all_cons p2 (all_cons p1543 (all_cons p245621 all_nil)))
    (by decide +kernel) (by decide +kernel) (by decide +kernel) (by decide +kernel) (by decide +kernel)
theorem p57660685428664091 : Nat.Prime 57660685428664091 :=
  pratt _ 6 56 [2, 5, 19, 43, 9311, 757986407]
    (all_cons p2 (all_cons p5 (all_cons p19 (all_cons p43 (all_cons p9311 (all_cons p757986407 all_nil))))))
    (by decide +kernel) (by decide +kernel) (by decide +kernel) (by decide +kernel) (by decide +kernel)
theorem p114430077720284863765762092766225391679591020381 : Nat.Prime 114430077720284863765762092766225391679591020381 :=
  pratt _ 2 157 [2, 2, 5, 521, 57660685428664091, 190455129210693390224369129]
    (all_cons p2 (all_cons p2 (all_cons p5 (all_cons p521 (all_cons p57660685428664091 (all_cons p190455129210693390224369129 all_nil))))))
    (by decide +kernel) (by decide +kernel) (by decide +kernel) (by decide +kernel) (by decide +kernel)
theorem p84032791 : Nat.Prime 84032791 :=
  pratt _ 3 27 [2, 3, 5, 1571, 1783]
    (all_cons p2 (all_cons p3 (all_cons p5 (all_cons p1571 (all_cons p1783 all_nil)))))
    (by decide +kernel) (by decide +kernel) (by decide +kernel) (by decide +kernel) (by decide +kernel)
theorem p68632771 : Nat.Prime 68632771 :=
  pratt _ 3 27 [2, 3, 5, 41, 55799]
    (all_cons p2 (all_cons p3 (all_cons p5 (all_cons p41 (all_cons p55799 all_nil)))))
    (by decide +kernel) (by decide +kernel) (by decide +kernel) (by decide +kernel) (by decide +kernel)
theorem p7675751843099 : Nat.Prime 7675751843099 :=
  pratt _ 2 43 [2, 199, 281, 68632771]
    (all_cons p2 (all_cons p199 (all_cons p281 (all_cons p68632771 all_nil))))
    (by decide +kernel) (by decide +kernel) (by decide +kernel) (by decide +kernel) (by decide +kernel)
theorem p4271386466502519123378319257166758282929862876911918307708639947947974242171 : Nat.Prime 4271386466502519123378319257166758282929862876911918307708639947947974242171 :=
  pratt _ 2 252 [2, 5, 223, 25951, 84032791, 7675751843099, 114430077720284863765762092766225391679591020381]
    (all_cons p2 (all_cons p5 (all_cons p223 (all_cons p25951 (all_cons p84032791 (all_cons p7675751843099 (all_cons p114430077720284863765762092766225391679591020381 all_nil)))))))
    (by decide +kernel) (by decide +kernel) (by decide +kernel) (by decide +kernel) (by decide +kernel)
theorem p76884956397045344220809746629001649092737531784414529538755519063063536359079 : Nat.Prime 76884956397045344220809746629001649092737531784414529538755519063063536359079 :=
  pratt _ 3 256 [2, 3, 3, 4271386466502519123378319257166758282929862876911918307708639947947974242171]
    (all_cons p2 (all_cons p3 (all_cons p3 (all_cons p4271386466502519123378319257166758282929862876911918307708639947947974242171 all_nil))))
    (by decide +kernel) (by decide +kernel) (by decide +kernel) (by decide +kernel) (by decide +kernel)
theorem p79695271 : Nat.Prime 79695271 :=
  pratt _ 12 27 [2, 3, 3, 5, 885503]
    (all_cons p2 (all_cons p3 (all_cons p3 (all_cons p5 (all_cons p885503 all_nil)))))
    (by decide +kernel) (by decide +kernel) (by decide +kernel) (by decide +kernel) (by decide +kernel)
theorem p6484007248561 : Nat.Prime 6484007248561 :=
  pratt _ 11 43 [2, 2, 2, 2, 3, 3, 5, 113, 79695271]
    (all_cons p2 (all_cons p2 (all_cons p2 (all_cons p2 (all_cons p3 (all_cons p3 (all_cons p5 (all_cons p113 (all_cons p79695271 all_nil)))))))))
    (by decide +kernel) (by decide +kernel) (by decide +kernel) (by decide +kernel) (by decide +kernel)
theorem p146208281456251399783 : Nat.Prime 146208281456251399783 :=
  pratt _ 6 67 [2, 3, 23, 53, 3083, 6484007248561]
    (all_cons p2 (all_cons p3 (all_cons p23 (all_cons p53 (all_cons p3083 (all_cons p6484007248561 all_nil))))))
    (by decide +kernel) (by decide +kernel) (by decide +kernel) (by decide +kernel) (by decide +kernel)
theorem p312561497 : Nat.Prime 312561497 :=
  pratt _ 3 29 [2, 2, 2, 13, 37, 43, 1889]
    (all_cons p2 (all_cons p2 (all_cons p2 (all_cons p13 (all_cons p37 (all_cons p43 (all_cons p1889 all_nil)))))))
    (by decide +kernel) (by decide +kernel) (by decide +kernel) (by decide +kernel) (by decide +kernel)
theorem p547948229735387969 : Nat.Prime 547948229735387969 :=
  pratt _ 3 59 [2, 2, 2, 2, 2, 2, 3943, 6947, 312561497]
    (all_cons p2 (all_cons p2 (all_cons p2 (all_cons p2 (all_cons p2 (all_cons p2 (all_cons p3943 (all_cons p6947 (all_cons p312561497 all_nil)))))))))
    (by decide +kernel) (by decide +kernel) (by decide +kernel) (by decide +kernel) (by decide +kernel)
theorem p6747833 : Nat.Prime 6747833 :=
  pratt _ 12 23 [2, 2, 2, 7, 13, 13, 23, 31]
    (all_cons p2 (all_cons p2 (all_cons p2 (all_cons p7 (all_cons p13 (all_cons p13 (all_cons p23 (all_cons p31 all_nil))))))))
    (by decide +kernel) (by decide +kernel) (by decide +kernel) (by decide +kernel) (by decide +kernel)
theorem p301251701 : Nat.Prime 301251701 :=
  pratt _ 2 29 [2, 2, 5, 5, 23, 227, 577]
    (all_cons p2 (all_cons p2 (all_cons p5 (all_cons p5 (all_cons p23 (all_cons p227 (all_cons p577 all_nil)))))))
    (by decide +kernel) (by decide +kernel) (by decide +kernel) (by decide +kernel) (by decide +kernel)
theorem p115716149475651296730461 : Nat.Prime 115716149475651296730461 :=
  pratt _ 2 77 [2, 2, 5, 409, 6959, 6747833, 301251701]
    (all_cons p2 (all_cons p2 (all_cons p5 (all_cons p409 (all_cons p6959 (all_cons p6747833 (all_cons p301251701 all_nil)))))))
    (by decide +kernel) (by decide +kernel) (by decide +kernel) (by decide +kernel) (by decide +kernel)
theorem p161422784561 : Nat.Prime 161422784561 :=
  pratt _ 3 38 [2, 2, 2, 2, 5, 3691, 546677]
    (all_cons p2 (all_cons p2 (all_cons p2 (all_cons p2 (all_cons p5 (all_cons p3691 (all_cons p546677 all_nil)))))))
    (by decide +kernel) (by decide +kernel) (by decide +kernel) (by decide +kernel) (by decide +kernel)
theorem p2905610122099 : Nat.Prime 2905610122099 :=
  pratt _ 2 42 [2, 3, 3, 161422784561]
    (all_cons p2 (all_cons p3 (all_cons p3 (all_cons p161422784561 all_nil))))
    (by decide +kernel) (by decide +kernel) (by decide +kernel) (by decide +kernel) (by decide +kernel)
theorem p1197111370304789 : Nat.Prime 1197111370304789 :=
  pratt _ 2 51 [2, 2, 103, 2905610122099]
    (all_cons p2 (all_cons p2 (all_cons p103 (all_cons p2905610122099 all_nil))))
    (by decide +kernel) (by decide +kernel) (by decide +kernel) (by decide +kernel) (by decide +kernel)
theorem p14365336443657469 : Nat.Prime 14365336443657469 :=
  pratt _ 2 54 [2, 2, 3, 1197111370304789]
    (all_cons p2 (all_cons p2 (all_cons p3 (all_cons p1197111370304789 all_nil))))
    (by decide +kernel) (by decide +kernel) (by decide +kernel) (by decide +kernel) (by decide +kernel)
theorem p2307908307480288228542246803936276549862379769663891118114524423 : Nat.Prime 2307908307480288228542246803936276549862379769663891118114524423 :=
  pratt _ 3 211 [2, 3, 17, 24841, 14365336443657469, 547948229735387969, 115716149475651296730461]
    (all_cons p2 (all_cons p3 (all_cons p17 (all_cons p24841 (all_cons p14365336443657469 (all_cons p547948229735387969 (all_cons p115716149475651296730461 all_nil)))))))
    (by decide +kernel) (by decide +kernel) (by decide +kernel) (by decide +kernel) (by decide +kernel)
theorem p1763593322239166354161909842446019520889512772719515192772960415288640868802149818095501499903527 : Nat.Prime 1763593322239166354161909842446019520889512772719515192772960415288640868802149818095501499903527 :=
  pratt _ 5 320 [2, 11, 11, 11, 13, 13, 59, 196907, 146208281456251399783, 2307908307480288228542246803936276549862379769663891118114524423]
    (all_cons p2 (all_cons p11 (all_cons p11 (all_cons p11 (all_cons p13 (all_cons p13 (all_cons p59 (all_cons p196907 (all_cons p146208281456251399783 (all_cons p2307908307480288228542246803936276549862379769663891118114524423 all_nil))))))))))
    (by decide +kernel) (by decide +kernel) (by decide +kernel) (by decide +kernel) (by decide +kernel)
theorem p205122193411 : Nat.Prime 205122193411 :=
  pratt _ 3 38 [2, 3, 5, 39251, 174197]
    (all_cons p2 (all_cons p3 (all_cons p5 (all_cons p39251 (all_cons p174197 all_nil)))))
    (by decide +kernel) (by decide +kernel) (by decide +kernel) (by decide +kernel) (by decide +kernel)
theorem p4161929304309191 : Nat.Prime 4161929304309191 :=
  pratt _ 7 52 [2, 5, 2029, 205122193411]
    (all_cons p2 (all_cons p5 (all_cons p2029 (all_cons p205122193411 all_nil))))
    (by decide +kernel) (by decide +kernel) (by decide +kernel) (by decide +kernel) (by decide +kernel)
theorem p1055261 : Nat.Prime 1055261 :=
  pratt _ 10 21 [2, 2, 5, 19, 2777]
    (all_cons p2 (all_cons p2 (all_cons p5 (all_cons p19 (all_cons p2777 all_nil)))))
    (by decide +kernel) (by decide +kernel) (by decide +kernel) (by decide +kernel) (by decide +kernel)
theorem p2110523 : Nat.Prime 2110523 :=
  pratt _ 2 22 [2, 1055261]
    (all_cons p2 (all_cons p1055261 all_nil))
    (by decide +kernel) (by decide +kernel) (by decide +kernel) (by decide +kernel) (by decide +kernel)
theorem p1872641429 : Nat.Prime 1872641429 :=
  pratt _ 2 31 [2, 2, 7, 7, 7, 31, 44029]
    (all_cons p2 (all_cons p2 (all_cons p7 (all_cons p7 (all_cons p7 (all_cons p31 (all_cons p44029 all_nil)))))))
    (by decide +kernel) (by decide +kernel) (by decide +kernel) (by decide +kernel) (by decide +kernel)
theorem p23713516839944203 : Nat.Prime 23713516839944203 :=
  pratt _ 22 55 [2, 3, 2110523, 1872641429]
    (all_cons p2 (all_cons p3 (all_cons p2110523 (all_cons p1872641429 all_nil))))
    (by decide +kernel) (by decide +kernel) (by decide +kernel) (by decide +kernel) (by decide +kernel)
theorem p4484624887 : Nat.Prime 4484624887 :=
  pratt _ 5 33 [2, 3, 3, 3, 7, 37, 43, 7457]
    (all_cons p2 (all_cons p3 (all_cons p3 (all_cons p3 (all_cons p7 (all_cons p37 (all_cons p43 (all_cons p7457 all_nil))))))))
    (by decide +kernel) (by decide +kernel) (by decide +kernel) (by decide +kernel) (by decide +kernel)
theorem p56834084706324953499635029374333218339957513609 : Nat.Prime 56834084706324953499635029374333218339957513609 :=
  pratt _ 3 156 [2, 2, 2, 7, 2293, 4484624887, 4161929304309191, 23713516839944203]
    (all_cons p2 (all_cons p2 (all_cons p2 (all_cons p7 (all_cons p2293 (all_cons p4484624887 (all_cons p4161929304309191 (all_cons p23713516839944203 all_nil))))))))
    (by decide +kernel) (by decide +kernel) (by decide +kernel) (by decide +kernel) (by decide +kernel)
theorem p631906081 : Nat.Prime 631906081 :=
  pratt _ 19 30 [2, 2, 2, 2, 2, 3, 5, 13, 101267]
    (all_cons p2 (all_cons p2 (all_cons p2 (all_cons p2 (all_cons p2 (all_cons p3 (all_cons p5 (all_cons p13 (all_cons p101267 all_nil)))))))))
    (by decide +kernel) (by decide +kernel) (by decide +kernel) (by decide +kernel) (by decide +kernel)
theorem p10064069 : Nat.Prime 10064069 :=
  pratt _ 2 24 [2, 2, 7, 17, 21143]
    (all_cons p2 (all_cons p2 (all_cons p7 (all_cons p17 (all_cons p21143 all_nil)))))
    (by decide +kernel) (by decide +kernel) (by decide +kernel) (by decide +kernel) (by decide +kernel)
theorem p352829224197635293617251 : Nat.Prime 352829224197635293617251 :=
  pratt _ 2 79 [2, 5, 5, 5, 7, 7, 7, 647, 10064069, 631906081]
    (all_cons p2 (all_cons p5 (all_cons p5 (all_cons p5 (all_cons p7 (all_cons p7 (all_cons p7 (all_cons p647 (all_cons p10064069 (all_cons p631906081 all_nil))))))))))
    (by decide +kernel) (by decide +kernel) (by decide +kernel) (by decide +kernel) (by decide +kernel)
theorem p23341373081361435103090946041083073851794115571864009670215941767494551877 : Nat.Prime 23341373081361435103090946041083073851794115571864009670215941767494551877 :=
  pratt _ 2 244 [2, 2, 3, 97, 352829224197635293617251, 56834084706324953499635029374333218339957513609]
    (all_cons p2 (all_cons p2 (all_cons p3 (all_cons p97 (all_cons p352829224197635293617251 (all_cons p56834084706324953499635029374333218339957513609 all_nil))))))
    (by decide +kernel) (by decide +kernel) (by decide +kernel) (by decide +kernel) (by decide +kernel)
theorem p299589410500344960818634453344053290288849906371853185689121682914766027672438458623 : Nat.Prime 299589410500344960818634453344053290288849906371853185689121682914766027672438458623 :=
  pratt _ 7 278 [2, 3, 3, 7, 11, 47, 197033, 23341373081361435103090946041083073851794115571864009670215941767494551877]
    (all_cons p2 (all_cons p3 (all_cons p3 (all_cons p7 (all_cons p11 (all_cons p47 (all_cons p197033 (all_cons p23341373081361435103090946041083073851794115571864009670215941767494551877 all_nil))))))))
    (by decide +kernel) (by decide +kernel) (by decide +kernel) (by decide +kernel) (by decide +kernel)
theorem p1763593322239166354161909842446019520889512772717686063760686124016784784845843468355685258203921 : Nat.Prime 1763593322239166354161909842446019520889512772717686063760686124016784784845843468355685258203921 :=
  pratt _ 6 320 [2, 2, 2, 2, 5, 7, 13, 89, 317, 28661, 299589410500344960818634453344053290288849906371853185689121682914766027672438458623]
    (all_cons p2 (all_cons p2 (all_cons p2 (all_cons p2 (all_cons p5 (all_cons p7 (all_cons p13 (all_cons p89 (all_cons p317 (all_cons p28661 (all_cons p299589410500344960818634453344053290288849906371853185689121682914766027672438458623 all_nil)))))))))))
    (by decide +kernel) (by decide +kernel) (by decide +kernel) (by decide +kernel) (by decide +kernel)
theorem p27093605140967 : Nat.Prime 27093605140967 :=
  pratt _ 5 45 [2, 7, 13, 83, 11393, 157427]
    (all_cons p2 (all_cons p7 (all_cons p13 (all_cons p83 (all_cons p11393 (all_cons p157427 all_nil))))))
    (by decide +kernel) (by decide +kernel) (by decide +kernel) (by decide +kernel) (by decide +kernel)
theorem p59016512273 : Nat.Prime 59016512273 :=
  pratt _ 3 36 [2, 2, 2, 2, 37967, 97151]
    (all_cons p2 (all_cons p2 (all_cons p2 (all_cons p2 (all_cons p37967 (all_cons p97151 all_nil))))))
    (by decide +kernel) (by decide +kernel) (by decide +kernel) (by decide +kernel) (by decide +kernel)
theorem p3012146720727260651 : Nat.Prime 3012146720727260651 :=
  pratt _ 13 62 [2, 5, 5, 283, 3607, 59016512273]
    (all_cons p2 (all_cons p5 (all_cons p5 (all_cons p283 (all_cons p3607 (all_cons p59016512273 all_nil))))))
    (by decide +kernel) (by decide +kernel) (by decide +kernel) (by decide +kernel) (by decide +kernel)
theorem p1898722439 : Nat.Prime 1898722439 :=
  pratt _ 11 31 [2, 1093, 868583]
    (all_cons p2 (all_cons p1093 (all_cons p868583 all_nil)))
    (by decide +kernel) (by decide +kernel) (by decide +kernel) (by decide +kernel) (by decide +kernel)
theorem p123606883 : Nat.Prime 123606883 :=
  pratt _ 2 27 [2, 3, 3, 7, 41, 71, 337]
    (all_cons p2 (all_cons p3 (all_cons p3 (all_cons p7 (all_cons p41 (all_cons p71 (all_cons p337 all_nil)))))))
    (by decide +kernel) (by decide +kernel) (by decide +kernel) (by decide +kernel) (by decide +kernel)
theorem p13843970897 : Nat.Prime 13843970897 :=
  pratt _ 5 34 [2, 2, 2, 2, 7, 123606883]
    (all_cons p2 (all_cons p2 (all_cons p2 (all_cons p2 (all_cons p7 (all_cons p123606883 all_nil))))))
    (by decide +kernel) (by decide +kernel) (by decide +kernel) (by decide +kernel) (by decide +kernel)
theorem p8076987940436711 : Nat.Prime 8076987940436711 :=
  pratt _ 7 53 [2, 5, 41, 1423, 13843970897]
    (all_cons p2 (all_cons p5 (all_cons p41 (all_cons p1423 (all_cons p13843970897 all_nil)))))
    (by decide +kernel) (by decide +kernel) (by decide +kernel) (by decide +kernel) (by decide +kernel)
theorem p726928914639303991 : Nat.Prime 726928914639303991 :=
  pratt _ 3 60 [2, 3, 3, 5, 8076987940436711]
    (all_cons p2 (all_cons p3 (all_cons p3 (all_cons p5 (all_cons p8076987940436711 all_nil)))))
    (by decide +kernel) (by decide +kernel) (by decide +kernel) (by decide +kernel) (by decide +kernel)
theorem p12811352796235023217778801482819 : Nat.Prime 12811352796235023217778801482819 :=
  pratt _ 2 104 [2, 3, 7, 13, 17, 1898722439, 726928914639303991]
    (all_cons p2 (all_cons p3 (all_cons p7 (all_cons p13 (all_cons p17 (all_cons p1898722439 (all_cons p726928914639303991 all_nil)))))))
    (by decide +kernel) (by decide +kernel) (by decide +kernel) (by decide +kernel) (by decide +kernel)
theorem p2663886769 : Nat.Prime 2663886769 :=
  pratt _ 7 32 [2, 2, 2, 2, 3, 41, 67, 89, 227]
    (all_cons p2 (all_cons p2 (all_cons p2 (all_cons p2 (all_cons p3 (all_cons p41 (all_cons p67 (all_cons p89 (all_cons p227 all_nil)))))))))
    (by decide +kernel) (by decide +kernel) (by decide +kernel) (by decide +kernel) (by decide +kernel)
theorem p7057776167979264311 : Nat.Prime 7057776167979264311 :=
  pratt _ 11 63 [2, 5, 11, 251, 95959, 2663886769]
    (all_cons p2 (all_cons p5 (all_cons p11 (all_cons p251 (all_cons p95959 (all_cons p2663886769 all_nil))))))
    (by decide +kernel) (by decide +kernel) (by decide +kernel) (by decide +kernel) (by decide +kernel)
theorem p9511259360250244436150360929400467 : Nat.Prime 9511259360250244436150360929400467 :=
  pratt _ 2 113 [2, 3, 3, 3, 3, 11, 73, 10453, 991057, 7057776167979264311]
    (all_cons p2 (all_cons p3 (all_cons p3 (all_cons p3 (all_cons p3 (all_cons p11 (all_cons p73 (all_cons p10453 (all_cons p991057 (all_cons p7057776167979264311 all_nil))))))))))
    (by decide +kernel) (by decide +kernel) (by decide +kernel) (by decide +kernel) (by decide +kernel)
theorem p13857381403312519376221497559214358876512960238914501360589056738895920081 : Nat.Prime 13857381403312519376221497559214358876512960238914501360589056738895920081 :=
  pratt _ 3 243 [2, 2, 2, 2, 5, 13, 43, 2543, 12811352796235023217778801482819, 9511259360250244436150360929400467]
    (all_cons p2 (all_cons p2 (all_cons p2 (all_cons p2 (all_cons p5 (all_cons p13 (all_cons p43 (all_cons p2543 (all_cons p12811352796235023217778801482819 (all_cons p9511259360250244436150360929400467 all_nil))))))))))
    (by decide +kernel) (by decide +kernel) (by decide +kernel) (by decide +kernel) (by decide +kernel)
theorem p21659270770119316173069236842332604979796116387017648600081618503821089934025961822236561982844534088440708417973331 : Nat.Prime 21659270770119316173069236842332604979796116387017648600081618503821089934025961822236561982844534088440708417973331 :=
  pratt _ 3 384 [2, 3, 5, 11, 79, 734647, 27093605140967, 3012146720727260651, 13857381403312519376221497559214358876512960238914501360589056738895920081]
    (all_cons p2 (all_cons p3 (all_cons p5 (all_cons p11 (all_cons p79 (all_cons p734647 (all_cons p27093605140967 (all_cons p3012146720727260651 (all_cons p13857381403312519376221497559214358876512960238914501360589056738895920081 all_nil)))))))))
    (by decide +kernel) (by decide +kernel) (by decide +kernel) (by decide +kernel) (by decide +kernel)
theorem p53014379452169 : Nat.Prime 53014379452169 :=
  pratt _ 3 46 [2, 2, 2, 5743, 18947, 60901]
    (all_cons p2 (all_cons p2 (all_cons p2 (all_cons p5743 (all_cons p18947 (all_cons p60901 all_nil))))))
    (by decide +kernel) (by decide +kernel) (by decide +kernel) (by decide +kernel) (by decide +kernel)
theorem p4977439 : Nat.Prime 4977439 :=
  pratt _ 6 23 [2, 3, 349, 2377]
    (all_cons p2 (all_cons p3 (all_cons p349 (all_cons p2377 all_nil))))
    (by decide +kernel) (by decide +kernel) (by decide +kernel) (by decide +kernel) (by decide +kernel)
theorem p657021949 : Nat.Prime 657021949 :=
  pratt _ 2 30 [2, 2, 3, 11, 4977439]
    (all_cons p2 (all_cons p2 (all_cons p3 (all_cons p11 (all_cons p4977439 all_nil)))))
    (by decide +kernel) (by decide +kernel) (by decide +kernel) (by decide +kernel) (by decide +kernel)
theorem p1559777 : Nat.Prime 1559777 :=
  pratt _ 3 21 [2, 2, 2, 2, 2, 79, 617]
    (all_cons p2 (all_cons p2 (all_cons p2 (all_cons p2 (all_cons p2 (all_cons p79 (all_cons p617 all_nil)))))))
    (by decide +kernel) (by decide +kernel) (by decide +kernel) (by decide +kernel) (by decide +kernel)
theorem p11594917 : Nat.Prime 11594917 :=
  pratt _ 5 24 [2, 2, 3, 3, 53, 59, 103]
    (all_cons p2 (all_cons p2 (all_cons p3 (all_cons p3 (all_cons p53 (all_cons p59 (all_cons p103 all_nil)))))))
    (by decide +kernel) (by decide +kernel) (by decide +kernel) (by decide +kernel) (by decide +kernel)
theorem p5071793 : Nat.Prime 5071793 :=
  pratt _ 3 23 [2, 2, 2, 2, 11, 28817]
    (all_cons p2 (all_cons p2 (all_cons p2 (all_cons p2 (all_cons p11 (all_cons p28817 all_nil))))))
    (by decide +kernel) (by decide +kernel) (by decide +kernel) (by decide +kernel) (by decide +kernel)
theorem p2520431 : Nat.Prime 2520431 :=
  pratt _ 7 22 [2, 5, 11, 11, 2083]
    (all_cons p2 (all_cons p5 (all_cons p11 (all_cons p11 (all_cons p2083 all_nil)))))
    (by decide +kernel) (by decide +kernel) (by decide +kernel) (by decide +kernel) (by decide +kernel)
theorem p49393939847159 : Nat.Prime 49393939847159 :=
  pratt _ 13 46 [2, 1049, 9341, 2520431]
    (all_cons p2 (all_cons p1049 (all_cons p9341 (all_cons p2520431 all_nil))))
    (by decide +kernel) (by decide +kernel) (by decide +kernel) (by decide +kernel) (by decide +kernel)
theorem p11543603 : Nat.Prime 11543603 :=
  pratt _ 2 24 [2, 7, 19, 43397]
    (all_cons p2 (all_cons p7 (all_cons p19 (all_cons p43397 all_nil))))
    (by decide +kernel) (by decide +kernel) (by decide +kernel) (by decide +kernel) (by decide +kernel)
theorem p1454493979 : Nat.Prime 1454493979 :=
  pratt _ 7 31 [2, 3, 3, 7, 11543603]
    (all_cons p2 (all_cons p3 (all_cons p3 (all_cons p7 (all_cons p11543603 all_nil)))))
    (by decide +kernel) (by decide +kernel) (by decide +kernel) (by decide +kernel) (by decide +kernel)
theorem p2788900573532341797131599550190476443808598899 : Nat.Prime 2788900573532341797131599550190476443808598899 :=
  pratt _ 2 151 [2, 7, 179, 241, 1093, 5071793, 11594917, 1454493979, 49393939847159]
    (all_cons p2 (all_cons p7 (all_cons p179 (all_cons p241 (all_cons p1093 (all_cons p5071793 (all_cons p11594917 (all_cons p1454493979 (all_cons p49393939847159 all_nil)))))))))
    (by decide +kernel) (by decide +kernel) (by decide +kernel) (by decide +kernel) (by decide +kernel)
theorem p669909697361913545660898382546007419518544524592370543 : Nat.Prime 669909697361913545660898382546007419518544524592370543 :=
  pratt _ 5 179 [2, 7, 11, 1559777, 2788900573532341797131599550190476443808598899]
    (all_cons p2 (all_cons p7 (all_cons p11 (all_cons p1559777 (all_cons p2788900573532341797131599550190476443808598899 all_nil)))))
    (by decide +kernel) (by decide +kernel) (by decide +kernel) (by decide +kernel) (by decide +kernel)
theorem p1866961 : Nat.Prime 1866961 :=
  pratt _ 13 21 [2, 2, 2, 2, 3, 3, 5, 2593]
    (all_cons p2 (all_cons p2 (all_cons p2 (all_cons p2 (all_cons p3 (all_cons p3 (all_cons p5 (all_cons p2593 all_nil))))))))
    (by decide +kernel) (by decide +kernel) (by decide +kernel) (by decide +kernel) (by decide +kernel)
theorem p11201767 : Nat.Prime 11201767 :=
  pratt _ 3 24 [2, 3, 1866961]
    (all_cons p2 (all_cons p3 (all_cons p1866961 all_nil)))
    (by decide +kernel) (by decide +kernel) (by decide +kernel) (by decide +kernel) (by decide +kernel)
theorem p90050068090664042551646936303486902724615855323314057604193773 : Nat.Prime 90050068090664042551646936303486902724615855323314057604193773 :=
  pratt _ 2 206 [2, 2, 3, 11201767, 669909697361913545660898382546007419518544524592370543]
    (all_cons p2 (all_cons p2 (all_cons p3 (all_cons p11201767 (all_cons p669909697361913545660898382546007419518544524592370543 all_nil)))))
    (by decide +kernel) (by decide +kernel) (by decide +kernel) (by decide +kernel) (by decide +kernel)
theorem p27678676889 : Nat.Prime 27678676889 :=
  pratt _ 6 35 [2, 2, 2, 17, 1709, 119087]
    (all_cons p2 (all_cons p2 (all_cons p2 (all_cons p17 (all_cons p1709 (all_cons p119087 all_nil))))))
    (by decide +kernel) (by decide +kernel) (by decide +kernel) (by decide +kernel) (by decide +kernel)
theorem p288135026414491 : Nat.Prime 288135026414491 :=
  pratt _ 2 49 [2, 3, 5, 347, 27678676889]
    (all_cons p2 (all_cons p3 (all_cons p5 (all_cons p347 (all_cons p27678676889 all_nil)))))
    (by decide +kernel) (by decide +kernel) (by decide +kernel) (by decide +kernel) (by decide +kernel)
theorem p8067780739605749 : Nat.Prime 8067780739605749 :=
  pratt _ 3 53 [2, 2, 7, 288135026414491]
    (all_cons p2 (all_cons p2 (all_cons p7 (all_cons p288135026414491 all_nil))))
    (by decide +kernel) (by decide +kernel) (by decide +kernel) (by decide +kernel) (by decide +kernel)
theorem p124822877 : Nat.Prime 124822877 :=
  pratt _ 2 27 [2, 2, 67, 109, 4273]
    (all_cons p2 (all_cons p2 (all_cons p67 (all_cons p109 (all_cons p4273 all_nil)))))
    (by decide +kernel) (by decide +kernel) (by decide +kernel) (by decide +kernel) (by decide +kernel)
theorem p21659270770119316173069236842332604979796116387017648600075645274821611501358515537962695117368903252229601718723941 : Nat.Prime 21659270770119316173069236842332604979796116387017648600075645274821611501358515537962695117368903252229601718723941 :=
  pratt _ 2 384 [2, 2, 5, 7, 7, 6997, 124822877, 657021949, 53014379452169, 8067780739605749, 90050068090664042551646936303486902724615855323314057604193773]
    (all_cons p2 (all_cons p2 (all_cons p5 (all_cons p7 (all_cons p7 (all_cons p6997 (all_cons p124822877 (all_cons p657021949 (all_cons p53014379452169 (all_cons p8067780739605749 (all_cons p90050068090664042551646936303486902724615855323314057604193773 all_nil)))))))))))
    (by decide +kernel) (by decide +kernel) (by decide +kernel) (by decide +kernel) (by decide +kernel)
theorem p8360987 : Nat.Prime 8360987 :=
  pratt _ 2 23 [2, 149, 28057]
    (all_cons p2 (all_cons p149 (all_cons p28057 all_nil)))
    (by decide +kernel) (by decide +kernel) (by decide +kernel) (by decide +kernel) (by decide +kernel)
theorem p50165923 : Nat.Prime 50165923 :=
  pratt _ 2 26 [2, 3, 8360987]
    (all_cons p2 (all_cons p3 (all_cons p8360987 all_nil)))
    (by decide +kernel) (by decide +kernel) (by decide +kernel) (by decide +kernel) (by decide +kernel)
theorem p1966807 : Nat.Prime 1966807 :=
  pratt _ 3 21 [2, 3, 3, 109267]
    (all_cons p2 (all_cons p3 (all_cons p3 (all_cons p109267 all_nil))))
    (by decide +kernel) (by decide +kernel) (by decide +kernel) (by decide +kernel) (by decide +kernel)
theorem p5612846281303 : Nat.Prime 5612846281303 :=
  pratt _ 3 43 [2, 3, 13, 36587, 1966807]
    (all_cons p2 (all_cons p3 (all_cons p13 (all_cons p36587 (all_cons p1966807 all_nil)))))
    (by decide +kernel) (by decide +kernel) (by decide +kernel) (by decide +kernel) (by decide +kernel)
theorem p84395496284499229623254033 : Nat.Prime 84395496284499229623254033 :=
  pratt _ 5 87 [2, 2, 2, 2, 11, 13, 131, 50165923, 5612846281303]
    (all_cons p2 (all_cons p2 (all_cons p2 (all_cons p2 (all_cons p11 (all_cons p13 (all_cons p131 (all_cons p50165923 (all_cons p5612846281303 all_nil)))))))))
    (by decide +kernel) (by decide +kernel) (by decide +kernel) (by decide +kernel) (by decide +kernel)
theorem p120179186709126902983513742993 : Nat.Prime 120179186709126902983513742993 :=
  pratt _ 3 97 [2, 2, 2, 2, 89, 84395496284499229623254033]
    (all_cons p2 (all_cons p2 (all_cons p2 (all_cons p2 (all_cons p89 (all_cons p84395496284499229623254033 all_nil))))))
    (by decide +kernel) (by decide +kernel) (by decide +kernel) (by decide +kernel) (by decide +kernel)
theorem p65797030259 : Nat.Prime 65797030259 :=
  pratt _ 2 36 [2, 23, 47, 1601, 19009]
    (all_cons p2 (all_cons p23 (all_cons p47 (all_cons p1601 (all_cons p19009 all_nil)))))
    (by decide +kernel) (by decide +kernel) (by decide +kernel) (by decide +kernel) (by decide +kernel)
theorem p60401673777763 : Nat.Prime 60401673777763 :=
  pratt _ 2 46 [2, 3, 3, 3, 17, 65797030259]
    (all_cons p2 (all_cons p3 (all_cons p3 (all_cons p3 (all_cons p17 (all_cons p65797030259 all_nil))))))
    (by decide +kernel) (by decide +kernel) (by decide +kernel) (by decide +kernel) (by decide +kernel)
theorem p329430728783919403 : Nat.Prime 329430728783919403 :=
  pratt _ 2 59 [2, 3, 3, 3, 101, 60401673777763]
    (all_cons p2 (all_cons p3 (all_cons p3 (all_cons p3 (all_cons p101 (all_cons p60401673777763 all_nil))))))
    (by decide +kernel) (by decide +kernel) (by decide +kernel) (by decide +kernel) (by decide +kernel)
theorem p35143541 : Nat.Prime 35143541 :=
  pratt _ 2 26 [2, 2, 5, 19, 23, 4021]
    (all_cons p2 (all_cons p2 (all_cons p5 (all_cons p19 (all_cons p23 (all_cons p4021 all_nil))))))
    (by decide +kernel) (by decide +kernel) (by decide +kernel) (by decide +kernel) (by decide +kernel)
theorem p1501501 : Nat.Prime 1501501 :=
  pratt _ 2 21 [2, 2, 3, 5, 5, 5, 7, 11, 13]
    (all_cons p2 (all_cons p2 (all_cons p3 (all_cons p5 (all_cons p5 (all_cons p5 (all_cons p7 (all_cons p11 (all_cons p13 all_nil)))))))))
    (by decide +kernel) (by decide +kernel) (by decide +kernel) (by decide +kernel) (by decide +kernel)
theorem p54054037 : Nat.Prime 54054037 :=
  pratt _ 2 26 [2, 2, 3, 3, 1501501]
    (all_cons p2 (all_cons p2 (all_cons p3 (all_cons p3 (all_cons p1501501 all_nil)))))
    (by decide +kernel) (by decide +kernel) (by decide +kernel) (by decide +kernel) (by decide +kernel)
theorem p72186710089950647 : Nat.Prime 72186710089950647 :=
  pratt _ 5 57 [2, 19, 35143541, 54054037]
    (all_cons p2 (all_cons p19 (all_cons p35143541 (all_cons p54054037 all_nil))))
    (by decide +kernel) (by decide +kernel) (by decide +kernel) (by decide +kernel) (by decide +kernel)
theorem p18335424362847464339 : Nat.Prime 18335424362847464339 :=
  pratt _ 2 64 [2, 127, 72186710089950647]
    (all_cons p2 (all_cons p127 (all_cons p72186710089950647 all_nil)))
    (by decide +kernel) (by decide +kernel) (by decide +kernel) (by decide +kernel) (by decide +kernel)
theorem p1491408717607 : Nat.Prime 1491408717607 :=
  pratt _ 3 41 [2, 3, 3, 29, 71, 293, 137341]
    (all_cons p2 (all_cons p3 (all_cons p3 (all_cons p29 (all_cons p71 (all_cons p293 (all_cons p137341 all_nil)))))))
    (by decide +kernel) (by decide +kernel) (by decide +kernel) (by decide +kernel) (by decide +kernel)
theorem p612609603457 : Nat.Prime 612609603457 :=
  pratt _ 5 40 [2, 2, 2, 2, 2, 2, 2, 3, 3347, 476647]
    (all_cons p2 (all_cons p2 (all_cons p2 (all_cons p2 (all_cons p2 (all_cons p2 (all_cons p2 (all_cons p3 (all_cons p3347 (all_cons p476647 all_nil))))))))))
    (by decide +kernel) (by decide +kernel) (by decide +kernel) (by decide +kernel) (by decide +kernel)
theorem p200935949933897 : Nat.Prime 200935949933897 :=
  pratt _ 3 48 [2, 2, 2, 41, 612609603457]
    (all_cons p2 (all_cons p2 (all_cons p2 (all_cons p41 (all_cons p612609603457 all_nil)))))
    (by decide +kernel) (by decide +kernel) (by decide +kernel) (by decide +kernel) (by decide +kernel)
theorem p4188433 : Nat.Prime 4188433 :=
  pratt _ 10 22 [2, 2, 2, 2, 3, 71, 1229]
    (all_cons p2 (all_cons p2 (all_cons p2 (all_cons p2 (all_cons p3 (all_cons p71 (all_cons p1229 all_nil)))))))
    (by decide +kernel) (by decide +kernel) (by decide +kernel) (by decide +kernel) (by decide +kernel)
theorem p20020709741 : Nat.Prime 20020709741 :=
  pratt _ 2 35 [2, 2, 5, 239, 4188433]
    (all_cons p2 (all_cons p2 (all_cons p5 (all_cons p239 (all_cons p4188433 all_nil)))))
    (by decide +kernel) (by decide +kernel) (by decide +kernel) (by decide +kernel) (by decide +kernel)
theorem p400414194821 : Nat.Prime 400414194821 :=
  pratt _ 2 39 [2, 2, 5, 20020709741]
    (all_cons p2 (all_cons p2 (all_cons p5 (all_cons p20020709741 all_nil))))
    (by decide +kernel) (by decide +kernel) (by decide +kernel) (by decide +kernel) (by decide +kernel)
theorem p31232307196039 : Nat.Prime 31232307196039 :=
  pratt _ 6 45 [2, 3, 13, 400414194821]
    (all_cons p2 (all_cons p3 (all_cons p13 (all_cons p400414194821 all_nil))))
    (by decide +kernel) (by decide +kernel) (by decide +kernel) (by decide +kernel) (by decide +kernel)
theorem p4684846079405851 : Nat.Prime 4684846079405851 :=
  pratt _ 2 53 [2, 3, 5, 5, 31232307196039]
    (all_cons p2 (all_cons p3 (all_cons p5 (all_cons p5 (all_cons p31232307196039 all_nil)))))
    (by decide +kernel) (by decide +kernel) (by decide +kernel) (by decide +kernel) (by decide +kernel)
theorem p2234757903503 : Nat.Prime 2234757903503 :=
  pratt _ 5 42 [2, 1913, 15511, 37657]
    (all_cons p2 (all_cons p1913 (all_cons p15511 (all_cons p37657 all_nil))))
    (by decide +kernel) (by decide +kernel) (by decide +kernel) (by decide +kernel) (by decide +kernel)
theorem p1064159 : Nat.Prime 1064159 :=
  pratt _ 13 21 [2, 149, 3571]
    (all_cons p2 (all_cons p149 (all_cons p3571 all_nil)))
    (by decide +kernel) (by decide +kernel) (by decide +kernel) (by decide +kernel) (by decide +kernel)
theorem p2128319 : Nat.Prime 2128319 :=
  pratt _ 7 22 [2, 1064159]
    (all_cons p2 (all_cons p1064159 all_nil))
    (by decide +kernel) (by decide +kernel) (by decide +kernel) (by decide +kernel) (by decide +kernel)
theorem p4256639 : Nat.Prime 4256639 :=
  pratt _ 7 23 [2, 2128319]
    (all_cons p2 (all_cons p2128319 all_nil))
    (by decide +kernel) (by decide +kernel) (by decide +kernel) (by decide +kernel) (by decide +kernel)
theorem p57034811399347976721726973543287819857845741391551 : Nat.Prime 57034811399347976721726973543287819857845741391551 :=
  pratt _ 6 166 [2, 3, 5, 5, 13, 17, 277, 5717, 24379, 4256639, 2234757903503, 4684846079405851]
    (all_cons p2 (all_cons p3 (all_cons p5 (all_cons p5 (all_cons p13 (all_cons p17 (all_cons p277 (all_cons p5717 (all_cons p24379 (all_cons p4256639 (all_cons p2234757903503 (all_cons p4684846079405851 all_nil))))))))))))
    (by decide +kernel) (by decide +kernel) (by decide +kernel) (by decide +kernel) (by decide +kernel)
theorem p297968944203544716575901889872036237935261750341463572996351910423 : Nat.Prime 297968944203544716575901889872036237935261750341463572996351910423 :=
  pratt _ 5 218 [2, 13, 200935949933897, 57034811399347976721726973543287819857845741391551]
    (all_cons p2 (all_cons p13 (all_cons p200935949933897 (all_cons p57034811399347976721726973543287819857845741391551 all_nil))))
    (by decide +kernel) (by decide +kernel) (by decide +kernel) (by decide +kernel) (by decide +kernel)
theorem p14435454750020088047685444818571282397270727096595623715684950293729763357371155607979 : Nat.Prime 14435454750020088047685444818571282397270727096595623715684950293729763357371155607979 :=
  pratt _ 2 283 [2, 17, 23, 41539, 1491408717607, 297968944203544716575901889872036237935261750341463572996351910423]
    (all_cons p2 (all_cons p17 (all_cons p23 (all_cons p41539 (all_cons p1491408717607 (all_cons p297968944203544716575901889872036237935261750341463572996351910423 all_nil))))))
    (by decide +kernel) (by decide +kernel) (by decide +kernel) (by decide +kernel) (by decide +kernel)
theorem p8948962207650232551656602815159153422162609644098354511344597187200057010413552439917934304191956942765446530386427345937963894309923928536070534607816947 : Nat.Prime 8948962207650232551656602815159153422162609644098354511344597187200057010413552439917934304191956942765446530386427345937963894309923928536070534607816947 :=
  pratt _ 2 512 [2, 7, 61, 329430728783919403, 18335424362847464339, 120179186709126902983513742993, 14435454750020088047685444818571282397270727096595623715684950293729763357371155607979]
    (all_cons p2 (all_cons p7 (all_cons p61 (all_cons p329430728783919403 (all_cons p18335424362847464339 (all_cons p120179186709126902983513742993 (all_cons p14435454750020088047685444818571282397270727096595623715684950293729763357371155607979 all_nil)))))))
    (by decide +kernel) (by decide +kernel) (by decide +kernel) (by decide +kernel) (by decide +kernel)
theorem p290442013 : Nat.Prime 290442013 :=
  pratt _ 5 29 [2, 2, 3, 7, 7, 181, 2729]
    (all_cons p2 (all_cons p2 (all_cons p3 (all_cons p7 (all_cons p7 (all_cons p181 (all_cons p2729 all_nil)))))))
    (by decide +kernel) (by decide +kernel) (by decide +kernel) (by decide +kernel) (by decide +kernel)
theorem p1171601 : Nat.Prime 1171601 :=
  pratt _ 11 21 [2, 2, 2, 2, 5, 5, 29, 101]
    (all_cons p2 (all_cons p2 (all_cons p2 (all_cons p2 (all_cons p5 (all_cons p5 (all_cons p29 (all_cons p101 all_nil))))))))
    (by decide +kernel) (by decide +kernel) (by decide +kernel) (by decide +kernel) (by decide +kernel)
theorem p140592121 : Nat.Prime 140592121 :=
  pratt _ 11 28 [2, 2, 2, 3, 5, 1171601]
    (all_cons p2 (all_cons p2 (all_cons p2 (all_cons p3 (all_cons p5 (all_cons p1171601 all_nil))))))
    (by decide +kernel) (by decide +kernel) (by decide +kernel) (by decide +kernel) (by decide +kernel)
theorem p6599675343983 : Nat.Prime 6599675343983 :=
  pratt _ 5 43 [2, 7, 7, 479, 140592121]
    (all_cons p2 (all_cons p7 (all_cons p7 (all_cons p479 (all_cons p140592121 all_nil)))))
    (by decide +kernel) (by decide +kernel) (by decide +kernel) (by decide +kernel) (by decide +kernel)
theorem p2269518422590621710010337 : Nat.Prime 2269518422590621710010337 :=
  pratt _ 3 81 [2, 2, 2, 2, 2, 37, 290442013, 6599675343983]
    (all_cons p2 (all_cons p2 (all_cons p2 (all_cons p2 (all_cons p2 (all_cons p37 (all_cons p290442013 (all_cons p6599675343983 all_nil))))))))
    (by decide +kernel) (by decide +kernel) (by decide +kernel) (by decide +kernel) (by decide +kernel)
theorem p8332699 : Nat.Prime 8332699 :=
  pratt _ 2 23 [2, 3, 11, 251, 503]
    (all_cons p2 (all_cons p3 (all_cons p11 (all_cons p251 (all_cons p503 all_nil)))))
    (by decide +kernel) (by decide +kernel) (by decide +kernel) (by decide +kernel) (by decide +kernel)
theorem p361396637489 : Nat.Prime 361396637489 :=
  pratt _ 3 39 [2, 2, 2, 2, 31, 67, 271, 40129]
    (all_cons p2 (all_cons p2 (all_cons p2 (all_cons p2 (all_cons p31 (all_cons p67 (all_cons p271 (all_cons p40129 all_nil))))))))
    (by decide +kernel) (by decide +kernel) (by decide +kernel) (by decide +kernel) (by decide +kernel)
theorem p1288691 : Nat.Prime 1288691 :=
  pratt _ 2 21 [2, 5, 13, 23, 431]
    (all_cons p2 (all_cons p5 (all_cons p13 (all_cons p23 (all_cons p431 all_nil)))))
    (by decide +kernel) (by decide +kernel) (by decide +kernel) (by decide +kernel) (by decide +kernel)
theorem p191760954274777244141857 : Nat.Prime 191760954274777244141857 :=
  pratt _ 10 78 [2, 2, 2, 2, 2, 3, 4289, 1288691, 361396637489]
    (all_cons p2 (all_cons p2 (all_cons p2 (all_cons p2 (all_cons p2 (all_cons p3 (all_cons p4289 (all_cons p1288691 (all_cons p361396637489 all_nil)))))))))
    (by decide +kernel) (by decide +kernel) (by decide +kernel) (by decide +kernel) (by decide +kernel)
theorem p4982806528470961888578867896009647265488138691022009860168845631273 : Nat.Prime 4982806528470961888578867896009647265488138691022009860168845631273 :=
  pratt _ 3 222 [2, 2, 2, 11, 19, 37, 43, 516521, 8332699, 191760954274777244141857, 2269518422590621710010337]
    (all_cons p2 (all_cons p2 (all_cons p2 (all_cons p11 (all_cons p19 (all_cons p37 (all_cons p43 (all_cons p516521 (all_cons p8332699 (all_cons p191760954274777244141857 (all_cons p2269518422590621710010337 all_nil)))))))))))
    (by decide +kernel) (by decide +kernel) (by decide +kernel) (by decide +kernel) (by decide +kernel)
theorem p1095220401229 : Nat.Prime 1095220401229 :=
  pratt _ 6 40 [2, 2, 3, 3, 3, 17, 19, 29, 409, 2647]
    (all_cons p2 (all_cons p2 (all_cons p3 (all_cons p3 (all_cons p3 (all_cons p17 (all_cons p19 (all_cons p29 (all_cons p409 (all_cons p2647 all_nil))))))))))
    (by decide +kernel) (by decide +kernel) (by decide +kernel) (by decide +kernel) (by decide +kernel)
theorem p109412129269 : Nat.Prime 109412129269 :=
  pratt _ 2 37 [2, 2, 3, 3, 3, 3, 3, 13, 17, 47, 10837]
    (all_cons p2 (all_cons p2 (all_cons p3 (all_cons p3 (all_cons p3 (all_cons p3 (all_cons p3 (all_cons p13 (all_cons p17 (all_cons p47 (all_cons p10837 all_nil)))))))))))
    (by decide +kernel) (by decide +kernel) (by decide +kernel) (by decide +kernel) (by decide +kernel)
theorem p23337925407708917343269873493319607638879341485914224746228038546474382183428298476287118961279 : Nat.Prime 23337925407708917343269873493319607638879341485914224746228038546474382183428298476287118961279 :=
  pratt _ 11 314 [2, 19543, 109412129269, 1095220401229, 4982806528470961888578867896009647265488138691022009860168845631273]
    (all_cons p2 (all_cons p19543 (all_cons p109412129269 (all_cons p1095220401229 (all_cons p4982806528470961888578867896009647265488138691022009860168845631273 all_nil)))))
    (by decide +kernel) (by decide +kernel) (by decide +kernel) (by decide +kernel) (by decide +kernel)
theorem p33278821 : Nat.Prime 33278821 :=
  pratt _ 2 25 [2, 2, 3, 5, 47, 11801]
    (all_cons p2 (all_cons p2 (all_cons p3 (all_cons p5 (all_cons p47 (all_cons p11801 all_nil))))))
    (by decide +kernel) (by decide +kernel) (by decide +kernel) (by decide +kernel) (by decide +kernel)
theorem p82441673 : Nat.Prime 82441673 :=
  pratt _ 3 27 [2, 2, 2, 179, 57571]
    (all_cons p2 (all_cons p2 (all_cons p2 (all_cons p179 (all_cons p57571 all_nil)))))
    (by decide +kernel) (by decide +kernel) (by decide +kernel) (by decide +kernel) (by decide +kernel)
theorem p55886090402833 : Nat.Prime 55886090402833 :=
  pratt _ 5 46 [2, 2, 2, 2, 3, 191, 8311, 733459]
    (all_cons p2 (all_cons p2 (all_cons p2 (all_cons p2 (all_cons p3 (all_cons p191 (all_cons p8311 (all_cons p733459 all_nil))))))))
    (by decide +kernel) (by decide +kernel) (by decide +kernel) (by decide +kernel) (by decide +kernel)
theorem p56951731 : Nat.Prime 56951731 :=
  pratt _ 3 26 [2, 3, 3, 5, 11, 57527]
    (all_cons p2 (all_cons p3 (all_cons p3 (all_cons p5 (all_cons p11 (all_cons p57527 all_nil))))))
    (by decide +kernel) (by decide +kernel) (by decide +kernel) (by decide +kernel) (by decide +kernel)
theorem p447825179 : Nat.Prime 447825179 :=
  pratt _ 2 29 [2, 7853, 28513]
    (all_cons p2 (all_cons p7853 (all_cons p28513 all_nil)))
    (by decide +kernel) (by decide +kernel) (by decide +kernel) (by decide +kernel) (by decide +kernel)
theorem p8948962207650232551656602815159153422162609644098354511344597187200057010413418528378981730643524959857451398370029280583094215613882043973354392115544169 : Nat.Prime 8948962207650232551656602815159153422162609644098354511344597187200057010413418528378981730643524959857451398370029280583094215613882043973354392115544169 :=
  pratt _ 7 512 [2, 2, 2, 3, 41, 1559, 4391, 14557, 33278821, 56951731, 82441673, 447825179, 55886090402833, 23337925407708917343269873493319607638879341485914224746228038546474382183428298476287118961279]
    (all_cons p2 (all_cons p2 (all_cons p2 (all_cons p3 (all_cons p41 (all_cons p1559 (all_cons p4391 (all_cons p14557 (all_cons p33278821 (all_cons p56951731 (all_cons p82441673 (all_cons p447825179 (all_cons p55886090402833 (all_cons p23337925407708917343269873493319607638879341485914224746228038546474382183428298476287118961279 all_nil))))))))))))))
    (by decide +kernel) (by decide +kernel) (by decide +kernel) (by decide +kernel) (by decide +kernel)

end Kryptos.Pratt
