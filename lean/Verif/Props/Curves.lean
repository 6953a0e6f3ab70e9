import Verif.Props.Ecdh
import Verif.Props.MpHex
import Verif.Lemmas.EcJac
import Verif.Model.Curves
/-
  The standard curves (C99).
-/
namespace Kryptos.Curves
open Mp Spec.Mp Ec
open Ecdh (CurveCtx)

/-- The numbers of a curve. -/
structure Params where
  p : Nat
  a : Nat
  b : Nat
  x : Nat
  y : Nat
  q : Nat

/-- The numbers of the table. -/
def params : CurveId → Params
  | .brainPoolP160R1 => ⟨0xE95E4A5F737059DC60DFC7AD95B3D8139515620F,
    0x340E7BE2A280EB74E2BE61BADA745D97E8F7C300,
    0x1E589A8595423412134FAA2DBDEC95C8D8675E58,
    0xBED5AF16EA3F6A4F62938C4631EB5AF7BDBCDBC3,
    0x1667CB477A1A8EC338F94741669C976316DA6321,
    0xE95E4A5F737059DC60DF5991D45029409E60FC09⟩
  | .brainPoolP160T1 => ⟨0xE95E4A5F737059DC60DFC7AD95B3D8139515620F,
    0xE95E4A5F737059DC60DFC7AD95B3D8139515620C,
    0x7A556B6DAE535B7B51ED2C4D7DAA7A0B5C55F380,
    0xB199B13B9B34EFC1397E64BAEB05ACC265FF2378,
    0xADD6718B7C7C1961F0991B842443772152C9E0AD,
    0xE95E4A5F737059DC60DF5991D45029409E60FC09⟩
  | .brainPoolP192R1 => ⟨0xC302F41D932A36CDA7A3463093D18DB78FCE476DE1A86297,
    0x6A91174076B1E0E19C39C031FE8685C1CAE040E5C69A28EF,
    0x469A28EF7C28CCA3DC721D044F4496BCCA7EF4146FBF25C9,
    0xC0A0647EAAB6A48753B033C56CB0F0900A2F5C4853375FD6,
    0x14B690866ABD5BB88B5F4828C1490002E6773FA2FA299B8F,
    0xC302F41D932A36CDA7A3462F9E9E916B5BE8F1029AC4ACC1⟩
  | .brainPoolP192T1 => ⟨0xC302F41D932A36CDA7A3463093D18DB78FCE476DE1A86297,
    0xC302F41D932A36CDA7A3463093D18DB78FCE476DE1A86294,
    0x13D56FFAEC78681E68F9DEB43B35BEC2FB68542E27897B79,
    0x3AE9E58C82F63C30282E1FE7BBF43FA72C446AF6F4618129,
    0x097E2C5667C2223A902AB5CA449D0084B7E5B3DE7CCC01C9,
    0xC302F41D932A36CDA7A3462F9E9E916B5BE8F1029AC4ACC1⟩
  | .brainPoolP224R1 => ⟨0xD7C134AA264366862A18302575D1D787B09F075797DA89F57EC8C0FF,
    0x68A5E62CA9CE6C1C299803A6C1530B514E182AD8B0042A59CAD29F43,
    0x2580F63CCFE44138870713B1A92369E33E2135D266DBB372386C400B,
    0x0D9029AD2C7E5CF4340823B2A87DC68C9E4CE3174C1E6EFDEE12C07D,
    0x58AA56F772C0726F24C6B89E4ECDAC24354B9E99CAA3F6D3761402CD,
    0xD7C134AA264366862A18302575D0FB98D116BC4B6DDEBCA3A5A7939F⟩
  | .brainPoolP224T1 => ⟨0xD7C134AA264366862A18302575D1D787B09F075797DA89F57EC8C0FF,
    0xD7C134AA264366862A18302575D1D787B09F075797DA89F57EC8C0FC,
    0x4B337D934104CD7BEF271BF60CED1ED20DA14C08B3BB64F18A60888D,
    0x6AB1E344CE25FF3896424E7FFE14762ECB49F8928AC0C76029B4D580,
    0x0374E9F5143E568CD23F3F4D7C0D4B1E41C8CC0D1C6ABD5F1A46DB4C,
    0xD7C134AA264366862A18302575D0FB98D116BC4B6DDEBCA3A5A7939F⟩
  | .brainPoolP256R1 => ⟨0xA9FB57DBA1EEA9BC3E660A909D838D726E3BF623D52620282013481D1F6E5377,
    0x7D5A0975FC2C3057EEF67530417AFFE7FB8055C126DC5C6CE94A4B44F330B5D9,
    0x26DC5C6CE94A4B44F330B5D9BBD77CBF958416295CF7E1CE6BCCDC18FF8C07B6,
    0x8BD2AEB9CB7E57CB2C4B482FFC81B7AFB9DE27E1E3BD23C23A4453BD9ACE3262,
    0x547EF835C3DAC4FD97F8461A14611DC9C27745132DED8E545C1D54C72F046997,
    0xA9FB57DBA1EEA9BC3E660A909D838D718C397AA3B561A6F7901E0E82974856A7⟩
  | .brainPoolP256T1 => ⟨0xA9FB57DBA1EEA9BC3E660A909D838D726E3BF623D52620282013481D1F6E5377,
    0xA9FB57DBA1EEA9BC3E660A909D838D726E3BF623D52620282013481D1F6E5374,
    0x662C61C430D84EA4FE66A7733D0B76B7BF93EBC4AF2F49256AE58101FEE92B04,
    0xA3E8EB3CC1CFE7B7732213B23A656149AFA142C47AAFBC2B79A191562E1305F4,
    0x2D996C823439C56D7F7B22E14644417E69BCB6DE39D027001DABE8F35B25C9BE,
    0xA9FB57DBA1EEA9BC3E660A909D838D718C397AA3B561A6F7901E0E82974856A7⟩
  | .brainPoolP320R1 => ⟨0xD35E472036BC4FB7E13C785ED201E065F98FCFA6F6F40DEF4F92B9EC7893EC28FCD412B1F1B32E27,
    0x3EE30B568FBAB0F883CCEBD46D3F3BB8A2A73513F5EB79DA66190EB085FFA9F492F375A97D860EB4,
    0x520883949DFDBC42D3AD198640688A6FE13F41349554B49ACC31DCCD884539816F5EB4AC8FB1F1A6,
    0x43BD7E9AFB53D8B85289BCC48EE5BFE6F20137D10A087EB6E7871E2A10A599C710AF8D0D39E20611,
    0x14FDD05545EC1CC8AB4093247F77275E0743FFED117182EAA9C77877AAAC6AC7D35245D1692E8EE1,
    0xD35E472036BC4FB7E13C785ED201E065F98FCFA5B68F12A32D482EC7EE8658E98691555B44C59311⟩
  | .brainPoolP320T1 => ⟨0xD35E472036BC4FB7E13C785ED201E065F98FCFA6F6F40DEF4F92B9EC7893EC28FCD412B1F1B32E27,
    0xD35E472036BC4FB7E13C785ED201E065F98FCFA6F6F40DEF4F92B9EC7893EC28FCD412B1F1B32E24,
    0xA7F561E038EB1ED560B3D147DB782013064C19F27ED27C6780AAF77FB8A547CEB5B4FEF422340353,
    0x925BE9FB01AFC6FB4D3E7D4990010F813408AB106C4F09CB7EE07868CC136FFF3357F624A21BED52,
    0x63BA3A7A27483EBF6671DBEF7ABB30EBEE084E58A0B077AD42A5A0989D1EE71B1B9BC0455FB0D2C3,
    0xD35E472036BC4FB7E13C785ED201E065F98FCFA5B68F12A32D482EC7EE8658E98691555B44C59311⟩
  | .brainPoolP384R1 => ⟨0x8CB91E82A3386D280F5D6F7E50E641DF152F7109ED5456B412B1DA197FB71123ACD3A729901D1A71874700133107EC53,
    0x7BC382C63D8C150C3C72080ACE05AFA0C2BEA28E4FB22787139165EFBA91F90F8AA5814A503AD4EB04A8C7DD22CE2826,
    0x04A8C7DD22CE28268B39B55416F0447C2FB77DE107DCD2A62E880EA53EEB62D57CB4390295DBC9943AB78696FA504C11,
    0x1D1C64F068CF45FFA2A63A81B7C13F6B8847A3E77EF14FE3DB7FCAFE0CBD10E8E826E03436D646AAEF87B2E247D4AF1E,
    0x8ABE1D7520F9C2A45CB1EB8E95CFD55262B70B29FEEC5864E19C054FF99129280E4646217791811142820341263C5315,
    0x8CB91E82A3386D280F5D6F7E50E641DF152F7109ED5456B31F166E6CAC0425A7CF3AB6AF6B7FC310883202E9046565⟩
  | .brainPoolP384T1 => ⟨0x8CB91E82A3386D280F5D6F7E50E641DF152F7109ED5456B412B1DA197FB71123ACD3A729901D1A71874700133107EC53,
    0x8CB91E82A3386D280F5D6F7E50E641DF152F7109ED5456B412B1DA197FB71123ACD3A729901D1A71874700133107EC50,
    0x7F519EADA7BDA81BD826DBA647910F8C4B9346ED8CCDC64E4B1ABD11756DCE1D2074AA263B88805CED70355A33B471EE,
    0x18DE98B02DB9A306F2AFCD7235F72A819B80AB12EBD653172476FECD462AABFFC4FF191B946A5F54D8D0AA2F418808CC,
    0x25AB056962D30651A114AFD2755AD336747F93475B7A1FCA3B88F2B6A208CCFE469408584DC2B2912675BF5B9E582928,
    0x8CB91E82A3386D280F5D6F7E50E641DF152F7109ED5456B31F166E6CAC0425A7CF3AB6AF6B7FC3103B883202E9046565⟩
  | .brainPoolP512R1 => ⟨0xAADD9DB8DBE9C48B3FD4E6AE33C9FC07CB308DB3B3C9D20ED6639CCA703308717D4D9B009BC66842AECDA12AE6A380E62881FF2F2D82C68528AA6056583A48F3,
    0x7830A3318B603B89E2327145AC234CC594CBDD8D3DF91610A83441CAEA9863BC2DED5D5AA8253AA10A2EF1C98B9AC8B57F1117A72BF2C7B9E7C1AC4D77FC94CA,
    0x3DF91610A83441CAEA9863BC2DED5D5AA8253AA10A2EF1C98B9AC8B57F1117A72BF2C7B9E7C1AC4D77FC94CADC083E67984050B75EBAE5DD2809BD638016F723,
    0x81AEE4BDD82ED9645A21322E9C4C6A9385ED9F70B5D916C1B43B62EEF4D0098EFF3B1F78E2D0D48D50D1687B93B97D5F7C6D5047406A5E688B352209BCB9F822,
    0x7DDE385D566332ECC0EABFA9CF7822FDF209F70024A57B1AA000C55B881F8111B2DCDE494A5F485E5BCA4BD88A2763AED1CA2B2FA8F0540678CD1E0F3AD80892,
    0xAADD9DB8DBE9C48B3FD4E6AE33C9FC07CB308DB3B3C9D20ED6639CCA70330870553E5C414CA926198661197FAC10471DB1D381085DDADDB58796829CA90069⟩
  | .brainPoolP512T1 => ⟨0xAADD9DB8DBE9C48B3FD4E6AE33C9FC07CB308DB3B3C9D20ED6639CCA703308717D4D9B009BC66842AECDA12AE6A380E62881FF2F2D82C68528AA6056583A48F3,
    0xAADD9DB8DBE9C48B3FD4E6AE33C9FC07CB308DB3B3C9D20ED6639CCA703308717D4D9B009BC66842AECDA12AE6A380E62881FF2F2D82C68528AA6056583A48F0,
    0x7CBBBCF9441CFAB76E1890E46884EAE321F70C0BCB4981527897504BEC3E36A62BCDFA2304976540F6450085F2DAE145C22553B465763689180EA2571867423E,
    0x640ECE5C12788717B9C1BA06CBC2A6FEBA85842458C56DDE9DB1758D39C0313D82BA51735CDB3EA499AA77A7D6943A64F7A3F25FE26F06B51BAA2696FA9035DA,
    0x5B534BD595F5AF0FA2C892376C84ACE1BB4E3019B71634C01131159CAE03CEE9D9932184BEEF216BD71DF2DADF86A627306ECFF96DBB8BACE198B61E00F8B332,
    0xAADD9DB8DBE9C48B3FD4E6AE33C9FC07CB308DB3B3C9D20ED6639CCA70330870553E5C414CA92619418661197FAC10471DB1D381085DDADDB58796829CA90069⟩

/-- The value of a numeral. -/
def numOf (s : String) : Option Nat := ((ascii s).mapM hexDigit?).map (ofDigitsBE 16)

def rowCheck (r : Row) : Bool :=
  numOf r.p = some (params r.id).p && numOf r.a = some (params r.id).a && numOf r.b = some (params r.id).b &&
    numOf r.x = some (params r.id).x && numOf r.y = some (params r.id).y && numOf r.q = some (params r.id).q &&
    r.bits = (params r.id).p.log2 + 1

theorem row_check : table.all rowCheck = true := by decide +kernel

theorem numOf_read (k : Nat) (hk : 0 < k) {s : String} {n : Nat} (h : numOf s = some n) (h0 : n ≠ 0) :
    ∃ m : Num (8 * k), hexValue (8 * k) (ascii s) = some m ∧ Is m n := by
  rw [numOf, Option.map_eq_some_iff] at h
  obtain ⟨ds, h1, h2⟩ := h
  have hs : ascii s ≠ [] := by
    intro hs
    rw [hs] at h1
    simp only [List.mapM_nil, Option.pure_def, Option.some.injEq] at h1
    subst h1
    exact h0 h2.symm
  obtain ⟨d, d1, d2, d3⟩ := hex_read k hk (ascii s) n hs ⟨ds, h1, h2.symm⟩
  refine ⟨_, d1, ?_, rfl, d2⟩
  have := List.length_pos_iff.2 hs
  show 0 < d.length
  rw [d3]
  exact Nat.div_pos (by omega) (by omega)

theorem params_pos (id : CurveId) : (params id).p ≠ 0 ∧ (params id).a ≠ 0 ∧ (params id).b ≠ 0 ∧ (params id).x ≠ 0 ∧ (params id).y ≠ 0 ∧
    (params id).q ≠ 0 := by
  cases id <;> decide

theorem find_row (id : CurveId) : ∃ r ∈ table, table.find? (·.id = id) = some r ∧ r.id = id := by
  cases h : table.find? (·.id = id) with
  | none => cases id <;> exact absurd h (by decide +kernel)
  | some r => exact ⟨r, List.mem_of_find?_eq_some h, rfl, by simpa using List.find?_some h⟩

/-- **C99**, the numbers: the curve that is made has the numbers of its name, with digits of 32 or of 64 bits, and the number of bits is
that of the modulus. -/
theorem std_curve {w : Nat} (hw : w = 32 ∨ w = 64) (id : CurveId) :
    ∃ cv : CurveCtx w, newStandardCurve w id = some cv ∧ cv.bits = (params id).p.log2 + 1 ∧ Is cv.ec.p (params id).p ∧
      Is cv.ec.a (params id).a ∧ Is cv.ec.b (params id).b ∧ Is cv.g.x (params id).x ∧ Is cv.g.y (params id).y ∧ Is cv.q (params id).q := by
  have hw8 : 8 ≤ w := by rcases hw with rfl | rfl <;> decide
  obtain ⟨k, hk, rfl⟩ : ∃ k, 0 < k ∧ w = 8 * k := by
    rcases hw with rfl | rfl
    · exact ⟨4, by decide, rfl⟩
    · exact ⟨8, by decide, rfl⟩
  obtain ⟨r, hr, h1, rfl⟩ := find_row id
  have hc := List.all_eq_true.1 row_check r hr
  simp only [rowCheck, Bool.and_eq_true, decide_eq_true_eq] at hc
  obtain ⟨⟨⟨⟨⟨⟨c1, c2⟩, c3⟩, c4⟩, c5⟩, c6⟩, c7⟩ := hc
  obtain ⟨z1, z2, z3, z4, z5, z6⟩ := params_pos r.id
  obtain ⟨p, p1, p2⟩ := numOf_read k hk c1 z1
  obtain ⟨a, a1, a2⟩ := numOf_read k hk c2 z2
  obtain ⟨b, b1, b2⟩ := numOf_read k hk c3 z3
  obtain ⟨x, x1, x2⟩ := numOf_read k hk c4 z4
  obtain ⟨y, y1, y2⟩ := numOf_read k hk c5 z5
  obtain ⟨q, q1, q2⟩ := numOf_read k hk c6 z6
  refine ⟨⟨r.bits, setCurve a b p, q, setPoint x y⟩, ?_, c7, p2.assignOpt hw8 none, a2.assignOpt hw8 none, b2.assignOpt hw8 none,
    x2.assignOpt hw8 none, y2.assignOpt hw8 none, q2⟩
  simp only [newStandardCurve, h1, p1, a1, b1, x1, y1, q1, Option.bind_eq_bind, Option.bind_some, Option.pure_def]

/-! ## The group -/

/-- The generator satisfies the equation, and it is not its own opposite. -/
def onCheck (r : Params) : Bool :=
  Nat.beq (r.y * r.y % r.p) ((r.x * r.x * r.x + r.a * r.x + r.b) % r.p) && !(Nat.beq (2 * r.y % r.p) 0) && !(Nat.beq (r.b % r.p) 0) &&
    Nat.beq (r.p % 2) 1 && Nat.blt r.x r.p && Nat.blt r.y r.p && Nat.blt 1 r.q

theorem on_check (id : CurveId) : onCheck (params id) = true := by cases id <;> decide +kernel

/-- The multiple of the generator by the order is the point at infinity. -/
theorem order_check (id : CurveId) (h1 : id ≠ .brainPoolP384R1) (h2 : id ≠ .brainPoolP512R1) :
    EcJac.orderCheck (params id).p (params id).a (params id).x (params id).y (params id).q = true := by
  cases id <;> first | contradiction | decide +kernel

theorem order_check_wrong (id : CurveId) (h : id = .brainPoolP384R1 ∨ id = .brainPoolP512R1) :
    EcJac.mulIs (params id).p (params id).a (params id).x (params id).y (params id).q (fun _ _ _ => true) = true := by
  rcases h with rfl | rfl <;> decide +kernel

theorem beq_false_iff {a b : Nat} : Nat.beq a b = false ↔ a ≠ b := by
  rw [ne_eq, ← Nat.beq_eq, Bool.not_eq_true]

/-- The curve of a name. -/
abbrev Grp (id : CurveId) : WeierstrassCurve.Affine (ZMod (params id).p) := W (params id).p (params id).a (params id).b

theorem gen_on (id : CurveId) [Fact (params id).p.Prime] : (Grp id).Nonsingular (params id).x (params id).y := by
  have h := on_check id
  simp only [onCheck, Bool.and_eq_true, Nat.beq_eq, Bool.not_eq_true', beq_false_iff] at h
  obtain ⟨⟨⟨⟨⟨⟨h1, h2⟩, -⟩, -⟩, -⟩, -⟩, -⟩ := h
  have e := (ZMod.natCast_eq_natCast_iff' _ _ _).2 h1
  push_cast at e
  rw [WeierstrassCurve.Affine.nonsingular_iff, WeierstrassCurve.Affine.equation_iff]
  refine ⟨?_, .inr ?_⟩
  · simp only [zero_mul, add_zero]
    linear_combination e
  · intro hy
    refine h2 ?_
    have : ((2 * (params id).y : Nat) : ZMod (params id).p) = (0 : Nat) := by
      simp only [zero_mul, sub_zero] at hy
      push_cast
      linear_combination hy
    have := (ZMod.natCast_eq_natCast_iff' _ _ _).1 this
    rwa [Nat.zero_mod] at this

/-- The generator of a name. -/
abbrev gen (id : CurveId) [Fact (params id).p.Prime] : (Grp id).Point := .some _ _ (gen_on id)

/-- **C99**, the point: the curve and the point of every name make a context with which the exchanges of `Ecdh` and the signatures of
`Ecdsa` work. -/
theorem std_good {w : Nat} (hw : w = 32 ∨ w = 64) (id : CurveId) [Fact (params id).p.Prime] :
    ∃ cv : CurveCtx w, newStandardCurve w id = some cv ∧ Ecdh.Good cv (params id).p (params id).a (params id).b (params id).q (gen id) := by
  obtain ⟨cv, h1, h2, h3, h4, h5, h6, h7, h8⟩ := std_curve hw id
  have h := on_check id
  simp only [onCheck, Bool.and_eq_true, Nat.beq_eq, Bool.not_eq_true', beq_false_iff, Nat.blt_eq] at h
  obtain ⟨⟨⟨⟨⟨⟨-, -⟩, b0⟩, odd⟩, xl⟩, yl⟩, -⟩ := h
  refine ⟨cv, h1, ⟨h3, h4, odd, fun hb => b0 ?_⟩, h5, h8, ?_, ?_⟩
  · have := (ZMod.natCast_eq_natCast_iff' (params id).b 0 _).1 (by rw [hb, Nat.cast_zero])
    rwa [Nat.zero_mod] at this
  · show Is _ _ ∧ Is _ _
    rw [ZMod.val_cast_of_lt xl, ZMod.val_cast_of_lt yl]
    exact ⟨h6, h7⟩
  · rw [h2]
    cases id <;> decide +kernel

/-- **C99**, the order: for all names but two, the multiple of the generator by the number that is given as its order is the point at
infinity, and that number is the order if it is prime.  (The full claim is that this holds for all names; see `curve_order_wrong`.) -/
theorem curve_order_partial (id : CurveId) [Fact (params id).p.Prime] (h1 : id ≠ .brainPoolP384R1) (h2 : id ≠ .brainPoolP512R1) :
    (params id).q • gen id = 0 ∧ ((params id).q.Prime → addOrderOf (gen id) = (params id).q) := by
  have hq : 1 < (params id).q := by cases id <;> decide
  have h := EcJac.order_of_check (gen_on id) hq (order_check id h1 h2)
  refine ⟨h, fun hp => ?_⟩
  have := Fact.mk hp
  exact addOrderOf_eq_prime h (WeierstrassCurve.Affine.Point.some_ne_zero _)

/-- **C99** is violated by two of the names: the number that is given as the order of the generator is not a multiple of the order. -/
theorem curve_order_wrong (id : CurveId) [Fact (params id).p.Prime] (h : id = .brainPoolP384R1 ∨ id = .brainPoolP512R1) :
    (params id).q • gen id ≠ 0 :=
  EcJac.ne_zero_of_check (gen_on id) (by rcases h with rfl | rfl <;> decide) (order_check_wrong id h)

end Kryptos.Curves
