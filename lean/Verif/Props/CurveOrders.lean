import Verif.Props.Curves
import Verif.Lemmas.BrainPrimes
/-
  The standard curves (C99), without hypotheses: the numbers that have to be prime are prime.
-/
namespace Kryptos.Curves
open Mp Spec.Mp Ec
open Ecdh (CurveCtx)

/-- **C99**, the field: the modulus of every name is prime. -/
instance prime_p (id : CurveId) : Fact (params id).p.Prime := by
  constructor
  cases id <;> first
    | exact Pratt.p1332297598440044874827085558802491743757193798159
    | exact Pratt.p4781668983906166242955001894344923773259119655253013193367
    | exact Pratt.p22721622932454352787552537995910928073340732145944992304435472941311
    | exact Pratt.p76884956397045344220809746629001649093037950200943055203735601445031516197751
    | exact Pratt.p1763593322239166354161909842446019520889512772719515192772960415288640868802149818095501499903527
    | exact Pratt.p21659270770119316173069236842332604979796116387017648600081618503821089934025961822236561982844534088440708417973331
    | exact Pratt.p8948962207650232551656602815159153422162609644098354511344597187200057010413552439917934304191956942765446530386427345937963894309923928536070534607816947

/-- The orders, of which those of two names are not the numbers of the table. -/
def order (id : CurveId) : Nat :=
  match id with
  | .brainPoolP384R1 => (params .brainPoolP384T1).q
  | .brainPoolP512R1 => (params .brainPoolP512T1).q
  | id => (params id).q

theorem prime_order (id : CurveId) : (order id).Prime := by
  cases id <;> first
    | exact Pratt.p1332297598440044874827085038830181364212942568457
    | exact Pratt.p4781668983906166242955001894269038308119863659119834868929
    | exact Pratt.p22721622932454352787552537995910923612567546342330757191396560966559
    | exact Pratt.p76884956397045344220809746629001649092737531784414529538755519063063536359079
    | exact Pratt.p1763593322239166354161909842446019520889512772717686063760686124016784784845843468355685258203921
    | exact Pratt.p21659270770119316173069236842332604979796116387017648600075645274821611501358515537962695117368903252229601718723941
    | exact Pratt.p8948962207650232551656602815159153422162609644098354511344597187200057010413418528378981730643524959857451398370029280583094215613882043973354392115544169

theorem order_check_R1 : EcJac.orderCheck (params .brainPoolP384R1).p (params .brainPoolP384R1).a (params .brainPoolP384R1).x
      (params .brainPoolP384R1).y (params .brainPoolP384T1).q = true ∧
    EcJac.orderCheck (params .brainPoolP512R1).p (params .brainPoolP512R1).a (params .brainPoolP512R1).x
      (params .brainPoolP512R1).y (params .brainPoolP512T1).q = true := by
  constructor <;> decide +kernel

theorem order_eq (id : CurveId) (h1 : id ≠ .brainPoolP384R1) (h2 : id ≠ .brainPoolP512R1) : order id = (params id).q := by
  cases id <;> first | exact absurd rfl h1 | exact absurd rfl h2 | rfl

/-- The order of the generator of every name, a prime. -/
theorem gen_order (id : CurveId) : addOrderOf (gen id) = order id := by
  have hp := prime_order id
  have := Fact.mk hp
  refine addOrderOf_eq_prime ?_ (WeierstrassCurve.Affine.Point.some_ne_zero _)
  refine EcJac.order_of_check (gen_on id) hp.one_lt ?_
  by_cases h1 : id = .brainPoolP384R1
  · subst h1; exact order_check_R1.1
  by_cases h2 : id = .brainPoolP512R1
  · subst h2; exact order_check_R1.2
  rw [order_eq id h1 h2]
  exact order_check id h1 h2

/-- **C99** for all names but two: the number that is given is the order of the generator, and prime. -/
theorem std_order_partial (id : CurveId) (h1 : id ≠ .brainPoolP384R1) (h2 : id ≠ .brainPoolP512R1) :
    (params id).q.Prime ∧ addOrderOf (gen id) = (params id).q := by
  have h := gen_order id
  have hp := prime_order id
  rw [order_eq id h1 h2] at h hp
  exact ⟨hp, h⟩

/-- **C99** is violated by the two: the order is that of the twisted curve, and the number given is another one. -/
theorem std_order_wrong (id : CurveId) (h : id = .brainPoolP384R1 ∨ id = .brainPoolP512R1) :
    addOrderOf (gen id) = order id ∧ ¬ addOrderOf (gen id) ∣ (params id).q :=
  ⟨gen_order id, fun hd => curve_order_wrong id h (addOrderOf_dvd_iff_nsmul_eq_zero.1 hd)⟩

/-- **C99**, the context: every name makes a context on a curve over a field, with a generator of prime order, with which the exchanges
of `Ecdh` and the signatures of `Ecdsa` work.  (For two names the context holds another number than that order.) -/
theorem std_context {w : Nat} (hw : w = 32 ∨ w = 64) (id : CurveId) :
    ∃ cv : CurveCtx w, newStandardCurve w id = some cv ∧ Ecdh.Good cv (params id).p (params id).a (params id).b (params id).q (gen id) ∧
      addOrderOf (gen id) = order id ∧ (order id).Prime :=
  let ⟨cv, h1, h2⟩ := std_good hw id
  ⟨cv, h1, h2, gen_order id, prime_order id⟩

end Kryptos.Curves
