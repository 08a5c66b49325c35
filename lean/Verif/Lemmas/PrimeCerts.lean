import Verif.Lemmas.Prime

/-!
# Primality certificates of the curve constants (generated from the factorisations of `n - 1`)
-/

set_option autoImplicit false

namespace MscPoc

theorem prime_28181 : Nat.Prime 28181 := by norm_num

theorem prime_545358713 :
    Nat.Prime 545358713 :=
  pocklington 30 _ 2 [(28181, 1)] (by decide +kernel) (by
    simp only [List.mem_cons, List.not_mem_nil, or_false, forall_eq]
    exact prime_28181)

theorem prime_305873 : Nat.Prime 305873 := by norm_num

theorem prime_293 : Nat.Prime 293 := by norm_num

theorem prime_29047611873442575647497758179 :
    Nat.Prime 29047611873442575647497758179 :=
  pocklington 95 _ 2 [(545358713, 1), (305873, 1), (293, 1)] (by decide +kernel) (by
    simp only [List.mem_cons, List.not_mem_nil, or_false, forall_eq_or_imp, forall_eq]
    exact ⟨prime_545358713, prime_305873, prime_293⟩)

theorem prime_341948486974166000522343609283189 :
    Nat.Prime 341948486974166000522343609283189 :=
  pocklington 109 _ 2 [(29047611873442575647497758179, 1)] (by decide +kernel) (by
    simp only [List.mem_cons, List.not_mem_nil, or_false, forall_eq]
    exact prime_29047611873442575647497758179)

theorem prime_120233 : Nat.Prime 120233 := by norm_num

theorem prime_4051 : Nat.Prime 4051 := by norm_num

theorem prime_59 : Nat.Prime 59 := by norm_num

theorem prime_174723607534414371449 :
    Nat.Prime 174723607534414371449 :=
  pocklington 68 _ 2 [(120233, 1), (4051, 1), (59, 1)] (by decide +kernel) (by
    simp only [List.mem_cons, List.not_mem_nil, or_false, forall_eq_or_imp, forall_eq]
    exact ⟨prime_120233, prime_4051, prime_59⟩)

theorem prime_115792089237316195423570985008687907852837564279074904382605163141518161494337 :
    Nat.Prime 115792089237316195423570985008687907852837564279074904382605163141518161494337 :=
  pocklington 256 _ 2 [(341948486974166000522343609283189, 1), (174723607534414371449, 1)] (by decide +kernel) (by
    simp only [List.mem_cons, List.not_mem_nil, or_false, forall_eq_or_imp, forall_eq]
    exact ⟨prime_341948486974166000522343609283189, prime_174723607534414371449⟩)

theorem prime_96557 : Nat.Prime 96557 := by norm_num

theorem prime_41201 : Nat.Prime 41201 := by norm_num

theorem prime_4423 : Nat.Prime 4423 := by norm_num

theorem prime_2657 : Nat.Prime 2657 := by norm_num

theorem prime_1627 : Nat.Prime 1627 := by norm_num

theorem prime_255515944373312847190720520512484175977 :
    Nat.Prime 255515944373312847190720520512484175977 :=
  pocklington 128 _ 2 [(96557, 1), (41201, 1), (4423, 1), (2657, 1), (1627, 1)] (by decide +kernel) (by
    simp only [List.mem_cons, List.not_mem_nil, or_false, forall_eq_or_imp, forall_eq]
    exact ⟨prime_96557, prime_41201, prime_4423, prime_2657, prime_1627⟩)

theorem prime_205115282021455665897114700593932402728804164701536103180137503955397371 :
    Nat.Prime 205115282021455665897114700593932402728804164701536103180137503955397371 :=
  pocklington 237 _ 2 [(255515944373312847190720520512484175977, 1)] (by decide +kernel) (by
    simp only [List.mem_cons, List.not_mem_nil, or_false, forall_eq]
    exact prime_255515944373312847190720520512484175977)

theorem prime_115792089237316195423570985008687907853269984665640564039457584007908834671663 :
    Nat.Prime 115792089237316195423570985008687907853269984665640564039457584007908834671663 :=
  pocklington 256 _ 2 [(205115282021455665897114700593932402728804164701536103180137503955397371, 1)] (by decide +kernel) (by
    simp only [List.mem_cons, List.not_mem_nil, or_false, forall_eq]
    exact prime_205115282021455665897114700593932402728804164701536103180137503955397371)

theorem prime_531581 : Nat.Prime 531581 := by norm_num

theorem prime_23 : Nat.Prime 23 := by norm_num

theorem prime_7 : Nat.Prime 7 := by norm_num

theorem prime_1257559732178653 :
    Nat.Prime 1257559732178653 :=
  pocklington 51 _ 2 [(531581, 1), (23, 1), (7, 1)] (by decide +kernel) (by
    simp only [List.mem_cons, List.not_mem_nil, or_false, forall_eq_or_imp, forall_eq]
    exact ⟨prime_531581, prime_23, prime_7⟩)

theorem prime_4434155615661930479 :
    Nat.Prime 4434155615661930479 :=
  pocklington 62 _ 2 [(1257559732178653, 1)] (by decide +kernel) (by
    simp only [List.mem_cons, List.not_mem_nil, or_false, forall_eq]
    exact prime_1257559732178653)

theorem prime_172054593956031949258510691 :
    Nat.Prime 172054593956031949258510691 :=
  pocklington 88 _ 2 [(4434155615661930479, 1)] (by decide +kernel) (by
    simp only [List.mem_cons, List.not_mem_nil, or_false, forall_eq]
    exact prime_4434155615661930479)

theorem prime_19757330305831588566944191468367130476339 :
    Nat.Prime 19757330305831588566944191468367130476339 :=
  pocklington 134 _ 2 [(172054593956031949258510691, 1)] (by decide +kernel) (by
    simp only [List.mem_cons, List.not_mem_nil, or_false, forall_eq]
    exact prime_172054593956031949258510691)

theorem prime_276602624281642239937218680557139826668747 :
    Nat.Prime 276602624281642239937218680557139826668747 :=
  pocklington 138 _ 2 [(19757330305831588566944191468367130476339, 1)] (by decide +kernel) (by
    simp only [List.mem_cons, List.not_mem_nil, or_false, forall_eq]
    exact prime_19757330305831588566944191468367130476339)

theorem prime_7237005577332262213973186563042994240857116359379907606001950938285454250989 :
    Nat.Prime 7237005577332262213973186563042994240857116359379907606001950938285454250989 :=
  pocklington 253 _ 2 [(276602624281642239937218680557139826668747, 1)] (by decide +kernel) (by
    simp only [List.mem_cons, List.not_mem_nil, or_false, forall_eq]
    exact prime_276602624281642239937218680557139826668747)

theorem prime_4153 : Nat.Prime 4153 := by norm_num

theorem prime_223 : Nat.Prime 223 := by norm_num

theorem prime_107 : Nat.Prime 107 := by norm_num

theorem prime_31 : Nat.Prime 31 := by norm_num

theorem prime_31757755568855353 :
    Nat.Prime 31757755568855353 :=
  pocklington 55 _ 2 [(4153, 1), (223, 1), (107, 1), (31, 1)] (by decide +kernel) (by
    simp only [List.mem_cons, List.not_mem_nil, or_false, forall_eq_or_imp, forall_eq]
    exact ⟨prime_4153, prime_223, prime_107, prime_31⟩)

theorem prime_3727 : Nat.Prime 3727 := by norm_num

theorem prime_1923133 :
    Nat.Prime 1923133 :=
  pocklington 21 _ 2 [(3727, 1)] (by decide +kernel) (by
    simp only [List.mem_cons, List.not_mem_nil, or_false, forall_eq]
    exact prime_3727)

theorem prime_132049 : Nat.Prime 132049 := by norm_num

theorem prime_57467 : Nat.Prime 57467 := by norm_num

theorem prime_353 : Nat.Prime 353 := by norm_num

theorem prime_3 : Nat.Prime 3 := by norm_num

theorem prime_74058212732561358302231226437062788676166966415465897661863160754340907 :
    Nat.Prime 74058212732561358302231226437062788676166966415465897661863160754340907 :=
  pocklington 236 _ 2 [(31757755568855353, 1), (1923133, 1), (132049, 1), (57467, 1), (353, 1), (3, 1)] (by decide +kernel) (by
    simp only [List.mem_cons, List.not_mem_nil, or_false, forall_eq_or_imp, forall_eq]
    exact ⟨prime_31757755568855353, prime_1923133, prime_132049, prime_57467, prime_353, prime_3⟩)

theorem prime_57896044618658097711785492504343953926634992332820282019728792003956564819949 :
    Nat.Prime 57896044618658097711785492504343953926634992332820282019728792003956564819949 :=
  pocklington 255 _ 2 [(74058212732561358302231226437062788676166966415465897661863160754340907, 1)] (by decide +kernel) (by
    simp only [List.mem_cons, List.not_mem_nil, or_false, forall_eq]
    exact prime_74058212732561358302231226437062788676166966415465897661863160754340907)

theorem prime_104471 : Nat.Prime 104471 := by norm_num

theorem prime_3969899 :
    Nat.Prime 3969899 :=
  pocklington 22 _ 2 [(104471, 1)] (by decide +kernel) (by
    simp only [List.mem_cons, List.not_mem_nil, or_false, forall_eq]
    exact prime_104471)

theorem prime_1002328039319 :
    Nat.Prime 1002328039319 :=
  pocklington 40 _ 2 [(3969899, 1)] (by decide +kernel) (by
    simp only [List.mem_cons, List.not_mem_nil, or_false, forall_eq]
    exact prime_3969899)

theorem prime_29 : Nat.Prime 29 := by norm_num

theorem prime_17 : Nat.Prime 17 := by norm_num

theorem prime_311245691 :
    Nat.Prime 311245691 :=
  pocklington 29 _ 2 [(29, 2), (17, 1), (7, 1)] (by decide +kernel) (by
    simp only [List.mem_cons, List.not_mem_nil, or_false, forall_eq_or_imp, forall_eq]
    exact ⟨prime_29, prime_17, prime_7⟩)

theorem prime_622491383 :
    Nat.Prime 622491383 :=
  pocklington 30 _ 2 [(311245691, 1)] (by decide +kernel) (by
    simp only [List.mem_cons, List.not_mem_nil, or_false, forall_eq]
    exact prime_311245691)

theorem prime_229 : Nat.Prime 229 := by norm_num

theorem prime_9350987 :
    Nat.Prime 9350987 :=
  pocklington 24 _ 2 [(229, 1), (17, 1)] (by decide +kernel) (by
    simp only [List.mem_cons, List.not_mem_nil, or_false, forall_eq_or_imp, forall_eq]
    exact ⟨prime_229, prime_17⟩)

theorem prime_187019741 :
    Nat.Prime 187019741 :=
  pocklington 28 _ 2 [(9350987, 1)] (by decide +kernel) (by
    simp only [List.mem_cons, List.not_mem_nil, or_false, forall_eq]
    exact prime_9350987)

theorem prime_38189 : Nat.Prime 38189 := by norm_num

theorem prime_17449 : Nat.Prime 17449 := by norm_num

theorem prime_3407 : Nat.Prime 3407 := by norm_num

theorem prime_115792089210356248762697446949407573529996955224135760342422259061068512044369 :
    Nat.Prime 115792089210356248762697446949407573529996955224135760342422259061068512044369 :=
  pocklington 256 _ 2 [(1002328039319, 1), (622491383, 1), (187019741, 1), (38189, 1), (17449, 1), (3407, 1)] (by decide +kernel) (by
    simp only [List.mem_cons, List.not_mem_nil, or_false, forall_eq_or_imp, forall_eq]
    exact ⟨prime_1002328039319, prime_622491383, prime_187019741, prime_38189, prime_17449, prime_3407⟩)

theorem prime_197 : Nat.Prime 197 := by norm_num

theorem prime_173 : Nat.Prime 173 := by norm_num

theorem prime_53 : Nat.Prime 53 := by norm_num

theorem prime_66417393611 :
    Nat.Prime 66417393611 :=
  pocklington 36 _ 2 [(197, 1), (173, 1), (53, 1)] (by decide +kernel) (by
    simp only [List.mem_cons, List.not_mem_nil, or_false, forall_eq_or_imp, forall_eq]
    exact ⟨prime_197, prime_173, prime_53⟩)

theorem prime_11290956913871 :
    Nat.Prime 11290956913871 :=
  pocklington 44 _ 2 [(66417393611, 1)] (by decide +kernel) (by
    simp only [List.mem_cons, List.not_mem_nil, or_false, forall_eq]
    exact prime_66417393611)

theorem prime_11 : Nat.Prime 11 := by norm_num

theorem prime_204061199 :
    Nat.Prime 204061199 :=
  pocklington 28 _ 3 [(107, 1), (23, 1), (11, 1)] (by decide +kernel) (by
    simp only [List.mem_cons, List.not_mem_nil, or_false, forall_eq_or_imp, forall_eq]
    exact ⟨prime_107, prime_23, prime_11⟩)

theorem prime_34282281433 :
    Nat.Prime 34282281433 :=
  pocklington 35 _ 2 [(204061199, 1)] (by decide +kernel) (by
    simp only [List.mem_cons, List.not_mem_nil, or_false, forall_eq]
    exact prime_204061199)

theorem prime_774023187263532362759620327192479577272145303 :
    Nat.Prime 774023187263532362759620327192479577272145303 :=
  pocklington 150 _ 2 [(11290956913871, 1), (34282281433, 1)] (by decide +kernel) (by
    simp only [List.mem_cons, List.not_mem_nil, or_false, forall_eq_or_imp, forall_eq]
    exact ⟨prime_11290956913871, prime_34282281433⟩)

theorem prime_835945042244614951780389953367877943453916927241 :
    Nat.Prime 835945042244614951780389953367877943453916927241 :=
  pocklington 160 _ 2 [(774023187263532362759620327192479577272145303, 1)] (by decide +kernel) (by
    simp only [List.mem_cons, List.not_mem_nil, or_false, forall_eq]
    exact prime_774023187263532362759620327192479577272145303)

theorem prime_115792089210356248762697446949407573530086143415290314195533631308867097853951 :
    Nat.Prime 115792089210356248762697446949407573530086143415290314195533631308867097853951 :=
  pocklington 256 _ 2 [(835945042244614951780389953367877943453916927241, 1)] (by decide +kernel) (by
    simp only [List.mem_cons, List.not_mem_nil, or_false, forall_eq]
    exact prime_835945042244614951780389953367877943453916927241)

theorem prime_311 : Nat.Prime 311 := by norm_num

theorem prime_2 : Nat.Prime 2 := by norm_num

theorem prime_9863677 :
    Nat.Prime 9863677 :=
  pocklington 24 _ 5 [(311, 1), (3, 2), (2, 2)] (by decide +kernel) (by
    simp only [List.mem_cons, List.not_mem_nil, or_false, forall_eq_or_imp, forall_eq]
    exact ⟨prime_311, prime_3, prime_2⟩)

theorem prime_37344768852931 :
    Nat.Prime 37344768852931 :=
  pocklington 46 _ 2 [(9863677, 1)] (by decide +kernel) (by
    simp only [List.mem_cons, List.not_mem_nil, or_false, forall_eq]
    exact prime_9863677)

theorem prime_55942463741690639 :
    Nat.Prime 55942463741690639 :=
  pocklington 56 _ 2 [(37344768852931, 1)] (by decide +kernel) (by
    simp only [List.mem_cons, List.not_mem_nil, or_false, forall_eq]
    exact prime_37344768852931)

theorem prime_37447 : Nat.Prime 37447 := by norm_num

theorem prime_8463023 :
    Nat.Prime 8463023 :=
  pocklington 24 _ 2 [(37447, 1)] (by decide +kernel) (by
    simp only [List.mem_cons, List.not_mem_nil, or_false, forall_eq]
    exact prime_37447)

theorem prime_248431 : Nat.Prime 248431 := by norm_num

theorem prime_251 : Nat.Prime 251 := by norm_num

theorem prime_1059392654943455286185473617842338478315215895509773412096307 :
    Nat.Prime 1059392654943455286185473617842338478315215895509773412096307 :=
  pocklington 200 _ 2 [(55942463741690639, 1), (8463023, 1), (248431, 1), (251, 1)] (by decide +kernel) (by
    simp only [List.mem_cons, List.not_mem_nil, or_false, forall_eq_or_imp, forall_eq]
    exact ⟨prime_55942463741690639, prime_8463023, prime_248431, prime_251⟩)

theorem prime_3055465788140352002733946906144561090641249606160407884365391979704929268480326390471 :
    Nat.Prime 3055465788140352002733946906144561090641249606160407884365391979704929268480326390471 :=
  pocklington 281 _ 2 [(1059392654943455286185473617842338478315215895509773412096307, 1)] (by decide +kernel) (by
    simp only [List.mem_cons, List.not_mem_nil, or_false, forall_eq]
    exact prime_1059392654943455286185473617842338478315215895509773412096307)

theorem prime_39402006196394479212279040100143613805079739270465446667946905279627659399113263569398956308152294913554433653942643 :
    Nat.Prime 39402006196394479212279040100143613805079739270465446667946905279627659399113263569398956308152294913554433653942643 :=
  pocklington 384 _ 2 [(3055465788140352002733946906144561090641249606160407884365391979704929268480326390471, 1)] (by decide +kernel) (by
    simp only [List.mem_cons, List.not_mem_nil, or_false, forall_eq]
    exact prime_3055465788140352002733946906144561090641249606160407884365391979704929268480326390471)

theorem prime_211 : Nat.Prime 211 := by norm_num

theorem prime_19 : Nat.Prime 19 := by norm_num

theorem prime_5 : Nat.Prime 5 := by norm_num

theorem prime_105957871 :
    Nat.Prime 105957871 :=
  pocklington 27 _ 2 [(211, 1), (19, 1), (5, 1)] (by decide +kernel) (by
    simp only [List.mem_cons, List.not_mem_nil, or_false, forall_eq_or_imp, forall_eq]
    exact ⟨prime_211, prime_19, prime_5⟩)

theorem prime_181 : Nat.Prime 181 := by norm_num

theorem prime_529709925838459440593 :
    Nat.Prime 529709925838459440593 :=
  pocklington 69 _ 2 [(105957871, 1), (181, 1), (7, 1)] (by decide +kernel) (by
    simp only [List.mem_cons, List.not_mem_nil, or_false, forall_eq_or_imp, forall_eq]
    exact ⟨prime_105957871, prime_181, prime_7⟩)

theorem prime_599 : Nat.Prime 599 := by norm_num

theorem prime_513928823 :
    Nat.Prime 513928823 :=
  pocklington 29 _ 2 [(599, 1), (59, 1)] (by decide +kernel) (by
    simp only [List.mem_cons, List.not_mem_nil, or_false, forall_eq_or_imp, forall_eq]
    exact ⟨prime_599, prime_59⟩)

theorem prime_53448597593 :
    Nat.Prime 53448597593 :=
  pocklington 36 _ 2 [(513928823, 1)] (by decide +kernel) (by
    simp only [List.mem_cons, List.not_mem_nil, or_false, forall_eq]
    exact prime_513928823)

theorem prime_1357291859799823621 :
    Nat.Prime 1357291859799823621 :=
  pocklington 61 _ 2 [(53448597593, 1)] (by decide +kernel) (by
    simp only [List.mem_cons, List.not_mem_nil, or_false, forall_eq]
    exact prime_53448597593)

theorem prime_312289 : Nat.Prime 312289 := by norm_num

theorem prime_38557 : Nat.Prime 38557 := by norm_num

theorem prime_8389 : Nat.Prime 8389 := by norm_num

theorem prime_19173790298027098165721053155794528970226934547887232785722672956982046098136719667167519737147526097 :
    Nat.Prime 19173790298027098165721053155794528970226934547887232785722672956982046098136719667167519737147526097 :=
  pocklington 334 _ 2 [(529709925838459440593, 1), (1357291859799823621, 1), (312289, 1), (38557, 1), (8389, 1)] (by decide +kernel) (by
    simp only [List.mem_cons, List.not_mem_nil, or_false, forall_eq_or_imp, forall_eq]
    exact ⟨prime_529709925838459440593, prime_1357291859799823621, prime_312289, prime_38557, prime_8389⟩)

theorem prime_39402006196394479212279040100143613805079739270465446667948293404245721771496870329047266088258938001861606973112319 :
    Nat.Prime 39402006196394479212279040100143613805079739270465446667948293404245721771496870329047266088258938001861606973112319 :=
  pocklington 384 _ 2 [(19173790298027098165721053155794528970226934547887232785722672956982046098136719667167519737147526097, 1)] (by decide +kernel) (by
    simp only [List.mem_cons, List.not_mem_nil, or_false, forall_eq]
    exact prime_19173790298027098165721053155794528970226934547887232785722672956982046098136719667167519737147526097)

end MscPoc
