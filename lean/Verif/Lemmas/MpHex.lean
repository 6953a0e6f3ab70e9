import Verif.Model.MpHex
import Verif.Spec.MpHex
import Verif.Lemmas.Mp
import Mathlib.Tactic.Ring
/-
  Facts about numerals and about the conversions of src/kryptos_mp.c.
-/
namespace Kryptos.Mp
open Spec.Mp

variable {w : Nat}

/-! ### Numerals -/

theorem ofBE_cons (b d : Nat) (ds : List Nat) : ofDigitsBE b (d :: ds) = d * b ^ ds.length + ofDigitsBE b ds := by
  have key : ∀ (l : List Nat) (a : Nat), l.foldl (fun a d => b * a + d) a = a * b ^ l.length + ofDigitsBE b l := by
    intro l
    induction l with
    | nil => intro a; simp [ofDigitsBE]
    | cons x l ih =>
      intro a
      have e : ofDigitsBE b (x :: l) = (b * 0 + x) * b ^ l.length + ofDigitsBE b l := ih _
      rw [List.foldl_cons, ih, e, List.length_cons]
      ring
  rw [ofDigitsBE, List.foldl_cons, key]; simp

theorem ofBE_append (b : Nat) (xs ys : List Nat) :
    ofDigitsBE b (xs ++ ys) = ofDigitsBE b xs * b ^ ys.length + ofDigitsBE b ys := by
  induction xs with
  | nil => simp [ofDigitsBE]
  | cons x xs ih => rw [List.cons_append, ofBE_cons, ofBE_cons, ih, List.length_append, pow_add]; ring

theorem ofBE_replicate (b n : Nat) : ofDigitsBE b (List.replicate n 0) = 0 := by
  induction n with
  | zero => rfl
  | succ n ih => rw [List.replicate_succ, ofBE_cons, ih]; simp

theorem ofBE_lt (b : Nat) (ds : List Nat) (h : ∀ d ∈ ds, d < b) : ofDigitsBE b ds < b ^ ds.length := by
  induction ds with
  | nil => simp [ofDigitsBE]
  | cons d ds ih =>
    have h1 := ih fun x hx => h x (by simp [hx])
    have h2 : d + 1 ≤ b := h d (by simp)
    rw [ofBE_cons, List.length_cons, pow_succ]
    calc _ < d * b ^ ds.length + b ^ ds.length := by omega
      _ = (d + 1) * b ^ ds.length := by ring
      _ ≤ b * b ^ ds.length := Nat.mul_le_mul_right _ h2
      _ = _ := Nat.mul_comm ..

theorem ofBE_inj (b : Nat) : ∀ (xs ys : List Nat), xs.length = ys.length → (∀ d ∈ xs, d < b) → (∀ d ∈ ys, d < b) →
    ofDigitsBE b xs = ofDigitsBE b ys → xs = ys
  | [], [], _, _, _, _ => rfl
  | x :: xs, y :: ys, hl, hx, hy, h => by
    have hl' : xs.length = ys.length := by simpa using hl
    have h1 := ofBE_lt b xs fun d hd => hx d (by simp [hd])
    have h2 := ofBE_lt b ys fun d hd => hy d (by simp [hd])
    rw [ofBE_cons, ofBE_cons, hl'] at h
    rw [hl'] at h1
    have hp : 0 < b ^ ys.length := by omega
    have e1 : x = y := by
      have := congrArg (· / b ^ ys.length) h
      simp only [Nat.mul_comm x, Nat.mul_comm y, Nat.mul_add_div hp, Nat.div_eq_of_lt h1, Nat.div_eq_of_lt h2] at this
      simpa using this
    subst e1
    rw [ofBE_inj b xs ys hl' (fun d hd => hx d (by simp [hd])) (fun d hd => hy d (by simp [hd])) (by omega)]

/-- The lower digits of a number. -/
theorem ofBE_range (b x n : Nat) :
    ofDigitsBE b ((List.range n).reverse.map fun i => x / b ^ i % b) = x % b ^ n := by
  induction n with
  | zero => simp [ofDigitsBE, Nat.mod_one]
  | succ n ih =>
    rw [List.range_succ, List.reverse_append, List.reverse_singleton, List.singleton_append, List.map_cons, ofBE_cons, ih,
      Nat.mod_pow_succ]
    simp only [List.length_map, List.length_reverse, List.length_range]
    ring

/-! ### Hexadecimal digits -/

/-- The value the code gives to a character. -/
def hv (c : Byte) : Nat := (xnb c).toNat

theorem hexDigit_xnb (c : Byte) : ∀ v, hexDigit? c = some v → hv c = v ∧ v < 16 := by
  have key : ∀ c : BitVec 8, ((hexDigit? c).all fun v => decide (hv c = v ∧ v < 16)) = true := by decide +kernel
  intro v h
  have := key c
  rw [h] at this
  simpa using this

/-- Every character is a hexadecimal digit. -/
def AllHex (s : Bytes) : Prop := ∀ c ∈ s, ∃ v, hexDigit? c = some v

theorem mapM_hex (s : Bytes) (ds : List Nat) : s.mapM hexDigit? = some ds ↔ AllHex s ∧ ds = s.map hv := by
  induction s generalizing ds with
  | nil => simp [AllHex, eq_comm]
  | cons c s ih =>
    rw [List.mapM_cons]
    cases hc : hexDigit? c with
    | none =>
      simp only [Option.bind_eq_bind, Option.bind_none, AllHex]
      constructor
      · intro h; cases h
      · intro h
        obtain ⟨v, hv⟩ := h.1 c (by simp)
        rw [hc] at hv; cases hv
    | some v =>
      simp only [Option.bind_eq_bind, Option.bind_some]
      have hcv := (hexDigit_xnb c v hc).1
      cases hs : s.mapM hexDigit? with
      | none =>
        simp only [Option.bind_none]
        constructor
        · intro h; cases h
        · intro h
          have := (ih (s.map hv)).2 ⟨fun x hx => h.1 x (by simp [hx]), rfl⟩
          rw [hs] at this; cases this
      | some l =>
        have h1 := (ih l).1 hs
        simp only [Option.bind_some, Option.pure_def, Option.some.injEq]
        constructor
        · intro h
          refine ⟨fun x hx => ?_, ?_⟩
          · rcases List.mem_cons.1 hx with rfl | hx
            · exact ⟨v, hc⟩
            · exact h1.1 x hx
          · rw [← h, h1.2, List.map_cons, hcv]
        · intro h
          rw [h.2, h1.2, List.map_cons, hcv]

theorem hv_lt (s : Bytes) (h : AllHex s) : ∀ d ∈ s.map hv, d < 16 := by
  intro d hd
  obtain ⟨c, hc, rfl⟩ := List.mem_map.1 hd
  obtain ⟨v, e⟩ := h c hc
  have := hexDigit_xnb c v e
  omega

/-! ### Reading -/

theorem shift_or (hw : 8 ≤ w) (d : BitVec w) (a b : Byte) (ha : a.toNat < 16) (hb : b.toNat < 16) :
    (((d <<< 4) <<< 4) ||| ((a <<< 4) ||| b).setWidth w).toNat = (d.toNat * 256 + (a.toNat * 16 + b.toNat)) % 2 ^ w := by
  have hab : ((a <<< 4) ||| b).toNat = a.toNat * 16 + b.toNat := by
    rw [BitVec.toNat_or, BitVec.toNat_shiftLeft, Nat.shiftLeft_eq, Nat.mod_eq_of_lt (by omega), Nat.mul_comm]
    exact (Nat.two_pow_add_eq_or_of_lt (i := 4) hb a.toNat).symm
  have h256 : 256 ≤ 2 ^ w := Nat.pow_le_pow_right (n := 2) (i := 8) (j := w) (by omega) hw
  rw [BitVec.toNat_or, BitVec.toNat_setWidth, hab, Nat.mod_eq_of_lt (a := a.toNat * 16 + b.toNat) (by omega),
    ← BitVec.shiftLeft_add, BitVec.toNat_shiftLeft, Nat.shiftLeft_eq]
  obtain ⟨k, rfl⟩ : ∃ k, w = 8 + k := ⟨w - 8, by omega⟩
  rw [pow_add 2 8 k, show (2 : Nat) ^ (4 + 4) = 256 by norm_num, Nat.mul_comm d.toNat, Nat.mul_mod_mul_left]
  have h := Nat.two_pow_add_eq_or_of_lt (i := 8) (b := a.toNat * 16 + b.toNat) (by omega) (d.toNat % 2 ^ k)
  rw [show (2 : Nat) ^ 8 = 256 by norm_num] at h
  rw [← h]
  have hm := Nat.mod_add_div d.toNat (2 ^ k)
  have hlt : 256 * (d.toNat % 2 ^ k) + (a.toNat * 16 + b.toNat) < 256 * 2 ^ k := by
    have := Nat.mod_lt d.toNat (Nat.two_pow_pos k)
    omega
  conv_rhs => rw [← hm]
  rw [show 256 * (d.toNat % 2 ^ k + 2 ^ k * (d.toNat / 2 ^ k)) + (a.toNat * 16 + b.toNat) =
    256 * (d.toNat % 2 ^ k) + (a.toNat * 16 + b.toNat) + 256 * 2 ^ k * (d.toNat / 2 ^ k) by ring, Nat.add_mul_mod_self_left,
    Nat.mod_eq_of_lt hlt]

theorem hexDigitLoop_spec (hw : 8 ≤ w) : ∀ (n : Nat) (cs : Bytes) (d : BitVec w), cs.length = 2 * n → AllHex cs →
    (hexDigitLoop d cs).toNat = (d.toNat * 16 ^ cs.length + ofDigitsBE 16 (cs.map hv)) % 2 ^ w
  | 0, cs, d, hl, _ => by
    have : cs = [] := List.length_eq_zero_iff.1 (by omega)
    subst this
    simp [hexDigitLoop, ofDigitsBE, Nat.mod_eq_of_lt d.isLt]
  | n + 1, a :: b :: cs, d, hl, hh => by
    have ha := hv_lt _ hh (hv a) (by simp)
    have hb := hv_lt _ hh (hv b) (by simp)
    rw [hexDigitLoop, hexDigitLoop_spec hw n cs _ (by simp at hl; omega) (fun c hc => hh c (by simp [hc])),
      shift_or hw d _ _ ha hb]
    simp only [List.length_cons, List.map_cons, ofBE_cons, List.length_map]
    rw [Nat.add_mod, Nat.mod_mul_mod, ← Nat.add_mod]
    congr 1
    simp only [hv]
    ring
  | n + 1, [], _, hl, _ => by simp at hl
  | n + 1, [_], _, hl, _ => by simp at hl; omega

theorem length_hexLoop (n : Nat) (cs : Bytes) : (hexLoop n cs : Digits w).length = n := by
  induction n generalizing cs with
  | zero => rfl
  | succ n ih => simp [hexLoop, ih]

theorem hexLoop_spec (k : Nat) (hk : 0 < k) : ∀ (n : Nat) (cs : Bytes), cs.length = n * (2 * k) → AllHex cs →
    val (hexLoop n cs : Digits (8 * k)).reverse = ofDigitsBE 16 (cs.map hv)
  | 0, cs, hl, _ => by
    have : cs = [] := List.length_eq_zero_iff.1 (by omega)
    subst this; rfl
  | n + 1, cs, hl, hh => by
    have hd : 8 * k / 4 = 2 * k := by omega
    have h16 : 16 ^ (2 * k) = 2 ^ (8 * k) := by
      rw [show (16 : Nat) = 2 ^ 4 by norm_num, ← pow_mul]; congr 1; omega
    have hlen : 2 * k ≤ cs.length := by rw [hl, Nat.add_mul]; omega
    have hdl : (cs.drop (2 * k)).length = n * (2 * k) := by rw [List.length_drop, hl, Nat.add_mul]; omega
    have htl : (cs.take (2 * k)).length = 2 * k := by rw [List.length_take]; omega
    have hht : AllHex (cs.take (2 * k)) := fun c hc => hh c (List.mem_of_mem_take hc)
    have hhd : AllHex (cs.drop (2 * k)) := fun c hc => hh c (List.mem_of_mem_drop hc)
    rw [hexLoop, hd, List.reverse_cons, val_append, List.length_reverse, length_hexLoop, hexLoop_spec k hk n _ hdl hhd]
    have hc := hexDigitLoop_spec (w := 8 * k) (by omega) k _ 0 htl hht
    have hlt := ofBE_lt 16 _ (hv_lt _ hht)
    rw [List.length_map, htl, h16] at hlt
    rw [show (0 : BitVec (8 * k)).toNat = 0 by simp, Nat.zero_mul, Nat.zero_add, Nat.mod_eq_of_lt hlt] at hc
    have e : cs.map hv = (cs.take (2 * k)).map hv ++ (cs.drop (2 * k)).map hv := by
      rw [← List.map_append, List.take_append_drop]
    rw [e, ofBE_append, List.length_map, hdl]
    simp only [val, Nat.mul_zero, Nat.add_zero, hc]
    rw [show 2 ^ (8 * k * n) = 16 ^ (n * (2 * k)) by rw [pow_mul, ← h16, ← pow_mul]; congr 1; ring]
    ring

theorem hexSize_ge (k n : Nat) (hk : 0 < k) : n ≤ hexSize (8 * k) n := by
  rw [hexSize, show 8 * k / 4 = 2 * k by omega]
  have := Nat.div_add_mod (n + 2 * k - 1) (2 * k)
  have h2 := Nat.mod_lt (n + 2 * k - 1) (show 0 < 2 * k by omega)
  rw [Nat.mul_comm] at this
  omega

theorem hexSize_digits (k n : Nat) (hk : 0 < k) :
    newSize (8 * k) (hexSize (8 * k) n * 4) = max ((n + 2 * k - 1) / (2 * k)) 1 := by
  rw [hexSize, show 8 * k / 4 = 2 * k by omega,
    show (n + 2 * k - 1) / (2 * k) * (2 * k) * 4 = (n + 2 * k - 1) / (2 * k) * (8 * k) by ring,
    newSize_mul (by omega)]

theorem hex_body (k : Nat) (hk : 0 < k) (v : Bytes) (hh : AllHex v) :
    val (hexLoop (newSize (8 * k) (hexSize (8 * k) v.length * 4))
      (List.replicate (hexSize (8 * k) v.length - v.length) 48 ++ v) : Digits (8 * k)).reverse = ofDigitsBE 16 (v.map hv) := by
  rw [hexSize_digits _ _ hk]
  have hge := hexSize_ge k v.length hk
  have hlen : (List.replicate (hexSize (8 * k) v.length - v.length) (48 : Byte) ++ v).length = hexSize (8 * k) v.length := by
    rw [List.length_append, List.length_replicate]; omega
  by_cases h0 : v = []
  · subst h0
    have hs : hexSize (8 * k) 0 = 0 := by
      rw [hexSize, show 8 * k / 4 = 2 * k by omega, Nat.div_eq_of_lt (by omega), Nat.zero_mul]
    simp only [List.length_nil, hs, Nat.sub_self, List.replicate_zero, List.append_nil]
    rw [Nat.div_eq_of_lt (by omega)]
    simp [hexLoop, hexDigitLoop, val, ofDigitsBE]
  · have hv0 : 0 < v.length := List.length_pos_iff.2 h0
    have hm : 1 ≤ (v.length + 2 * k - 1) / (2 * k) := Nat.div_pos (by omega) (by omega)
    rw [Nat.max_eq_left hm, hexLoop_spec k hk]
    · rw [List.map_append, List.map_replicate, show hv 48 = 0 by decide, ofBE_append, ofBE_replicate]; simp
    · rw [hlen, hexSize, show 8 * k / 4 = 2 * k by omega]
    · intro c hc
      rcases List.mem_append.1 hc with h | h
      · rw [List.mem_replicate] at h; exact ⟨0, by rw [h.2]; decide⟩
      · exact hh c h

/-! ### Printing -/

theorem nbx_hex (x : Nat) (h : x < 16) : ∃ c, rd nbxlt x = .ok c ∧ hexDigit? c = some x ∧ hv c = x := by
  have key : ∀ x : Fin 16, ∃ c, rd nbxlt x = .ok c ∧ hexDigit? c = some x.val ∧ hv c = x := by
    intro x
    refine ⟨nbxlt[x.val]'(Nat.lt_of_lt_of_eq x.isLt (by decide)), rd_eq_ok _, ?_⟩
    revert x
    decide +kernel
  exact key ⟨x, h⟩

/-- The character of a number below 16. -/
def nb (x : Nat) : Byte := nbxlt[x % 16]'(Nat.lt_of_lt_of_eq (Nat.mod_lt _ (by omega)) (by decide))

theorem nb_spec (x : Nat) (h : x < 16) : rd nbxlt x = .ok (nb x) ∧ hexDigit? (nb x) = some x ∧ hv (nb x) = x := by
  obtain ⟨c, h1, h2, h3⟩ := nbx_hex x h
  have : c = nb x := by
    have e : rd nbxlt x = .ok (nb x) := by
      rw [rd_eq_ok (Nat.lt_of_lt_of_eq h (by decide))]; simp only [nb, Nat.mod_eq_of_lt h]
    rw [h1] at e; cases e; rfl
  exact ⟨this ▸ h1, this ▸ h2, this ▸ h3⟩

theorem digitHex_spec (k : Nat) (d : BitVec (8 * k)) :
    ∃ cs, digitHex d = .ok cs ∧ cs.length = 2 * k ∧ AllHex cs ∧ ofDigitsBE 16 (cs.map hv) = d.toNat := by
  have h16 : ∀ i, 16 ^ i = 2 ^ (4 * i) := fun i => by rw [show (16 : Nat) = 2 ^ 4 by norm_num, ← pow_mul]
  have hlt : ∀ i, d.toNat / 16 ^ i % 16 < 16 := fun i => Nat.mod_lt _ (by omega)
  refine ⟨(List.range (2 * k)).reverse.map fun i => nb (d.toNat / 16 ^ i % 16), ?_, by simp, ?_, ?_⟩
  · rw [digitHex, show 8 * k / 4 = 2 * k by omega]
    apply mapM_ok
    intro i hi
    have hi' : i < 2 * k := by simpa using hi
    rw [← (nb_spec _ (hlt i)).1]
    congr 1
    split
    · rename_i he
      rw [BitVec.toNat_ushiftRight, Nat.shiftRight_eq_div_pow, h16, Nat.mod_eq_of_lt]
      rw [Nat.div_lt_iff_lt_mul (Nat.two_pow_pos _), show (16 : Nat) = 2 ^ 4 by norm_num, ← pow_add,
        show 4 + 4 * i = 8 * k by omega]
      exact d.isLt
    · have h15 : (15 : BitVec (8 * k)).toNat = 2 ^ 4 - 1 := by
        rw [show (15 : BitVec (8 * k)) = BitVec.ofNat _ 15 from rfl, BitVec.toNat_ofNat]
        refine (Nat.mod_eq_of_lt ?_).trans (by norm_num)
        calc 15 < 2 ^ 8 := by norm_num
          _ ≤ 2 ^ (8 * k) := Nat.pow_le_pow_right (by omega) (by omega)
      rw [BitVec.toNat_and, h15, Nat.and_two_pow_sub_one_eq_mod, BitVec.toNat_ushiftRight, Nat.shiftRight_eq_div_pow, h16]
  · intro c hc
    obtain ⟨i, -, rfl⟩ := List.mem_map.1 hc
    exact ⟨_, (nb_spec _ (hlt i)).2.1⟩
  · rw [List.map_map]
    have : (hv ∘ fun i => nb (d.toNat / 16 ^ i % 16)) = fun i => d.toNat / 16 ^ i % 16 := by
      funext i; exact (nb_spec _ (hlt i)).2.2
    rw [this, ofBE_range, Nat.mod_eq_of_lt]
    rw [h16, show 4 * (2 * k) = 8 * k by omega]
    exact d.isLt

theorem digits_hex (k : Nat) (d : Digits (8 * k)) :
    ∃ cs, d.reverse.mapM digitHex = .ok cs ∧ cs.flatten.length = d.length * (2 * k) ∧ AllHex cs.flatten ∧
      ofDigitsBE 16 (cs.flatten.map hv) = val d := by
  induction d with
  | nil => exact ⟨[], rfl, by simp, by simp [AllHex], by simp [ofDigitsBE, val]⟩
  | cons x d ih =>
    obtain ⟨cs, h1, h2, h3, h4⟩ := ih
    obtain ⟨c, g1, g2, g3, g4⟩ := digitHex_spec k x
    refine ⟨cs ++ [c], ?_, ?_, ?_, ?_⟩
    · rw [List.reverse_cons, List.mapM_append, h1, Out.bind_ok, List.mapM_cons, g1]; rfl
    · rw [List.flatten_append, List.length_append, h2, List.length_cons]; simp [g2]; ring
    · rw [List.flatten_append]
      intro y hy
      rcases List.mem_append.1 hy with h | h
      · exact h3 y h
      · exact g3 y (by simpa using h)
    · rw [List.flatten_append, List.map_append, ofBE_append, h4]
      simp only [List.flatten_cons, List.flatten_nil, List.append_nil, List.length_map, g2, g4, val]
      rw [show 16 ^ (2 * k) = 2 ^ (8 * k) by
        rw [show (16 : Nat) = 2 ^ 4 by norm_num, ← pow_mul]; congr 1; omega]
      ring

end Kryptos.Mp
