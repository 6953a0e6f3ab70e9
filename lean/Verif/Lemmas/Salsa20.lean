import Verif.Model.Salsa20
import Verif.Spec.Salsa20
import Verif.Lemmas.BlockCipher
import Verif.Lemmas.Sha
import Verif.Words
/-
  The double rounds of the model are those of the specifications.
-/
namespace Kryptos.Stream
open Spec.Salsa Spec.MD

theorem rot_eq (u : W32) (c : Nat) (h : c < 32) : u.rotateLeft c = rotl u c := (Hash.rotl_eq u c h).symm

theorem mat_words (M : Mat) : mat (words M) = M := by
  funext r c
  match r, c with
  | 0, 0 => rfl
  | 0, 1 => rfl
  | 0, 2 => rfl
  | 0, 3 => rfl
  | 1, 0 => rfl
  | 1, 1 => rfl
  | 1, 2 => rfl
  | 1, 3 => rfl
  | 2, 0 => rfl
  | 2, 1 => rfl
  | 2, 2 => rfl
  | 2, 3 => rfl
  | 3, 0 => rfl
  | 3, 1 => rfl
  | 3, 2 => rfl
  | 3, 3 => rfl

theorem words_mat (ws : List W32) (h : ws.length = 16) : words (mat ws) = ws := by
  match ws, h with
  | [_, _, _, _, _, _, _, _, _, _, _, _, _, _, _, _], _ => rfl

/-- The quarter round of Salsa20 on four words. -/
def sQ (a b c d : W32) : Four 32 :=
  let z1 := b ^^^ rotl (a + d) 7
  let z2 := c ^^^ rotl (z1 + a) 9
  let z3 := d ^^^ rotl (z2 + z1) 13
  ⟨a ^^^ rotl (z3 + z2) 18, z1, z2, z3⟩

/-- The quarter round of ChaCha on four words. -/
def cQ (a b c d : W32) : Four 32 :=
  let a := a + b
  let d := rotl (d ^^^ a) 16
  let c := c + d
  let b := rotl (b ^^^ c) 12
  let a := a + b
  let d := rotl (d ^^^ a) 8
  let c := c + d
  ⟨a, rotl (b ^^^ c) 7, c, d⟩

theorem salsaC0 (x0 x1 x2 x3 x4 x5 x6 x7 x8 x9 x10 x11 x12 x13 x14 x15 : W32) :
    salsaQr 0 4 8 12 [x0, x1, x2, x3, x4, x5, x6, x7, x8, x9, x10, x11, x12, x13, x14, x15] =
      .ok [(sQ x0 x4 x8 x12).a, x1, x2, x3, (sQ x0 x4 x8 x12).b, x5, x6, x7, (sQ x0 x4 x8 x12).c, x9, x10, x11, (sQ x0 x4 x8 x12).d, x13, x14, x15] := rfl

theorem salsaC1 (x0 x1 x2 x3 x4 x5 x6 x7 x8 x9 x10 x11 x12 x13 x14 x15 : W32) :
    salsaQr 5 9 13 1 [x0, x1, x2, x3, x4, x5, x6, x7, x8, x9, x10, x11, x12, x13, x14, x15] =
      .ok [x0, (sQ x5 x9 x13 x1).d, x2, x3, x4, (sQ x5 x9 x13 x1).a, x6, x7, x8, (sQ x5 x9 x13 x1).b, x10, x11, x12, (sQ x5 x9 x13 x1).c, x14, x15] := rfl

theorem salsaC2 (x0 x1 x2 x3 x4 x5 x6 x7 x8 x9 x10 x11 x12 x13 x14 x15 : W32) :
    salsaQr 10 14 2 6 [x0, x1, x2, x3, x4, x5, x6, x7, x8, x9, x10, x11, x12, x13, x14, x15] =
      .ok [x0, x1, (sQ x10 x14 x2 x6).c, x3, x4, x5, (sQ x10 x14 x2 x6).d, x7, x8, x9, (sQ x10 x14 x2 x6).a, x11, x12, x13, (sQ x10 x14 x2 x6).b, x15] := rfl

theorem salsaC3 (x0 x1 x2 x3 x4 x5 x6 x7 x8 x9 x10 x11 x12 x13 x14 x15 : W32) :
    salsaQr 15 3 7 11 [x0, x1, x2, x3, x4, x5, x6, x7, x8, x9, x10, x11, x12, x13, x14, x15] =
      .ok [x0, x1, x2, (sQ x15 x3 x7 x11).b, x4, x5, x6, (sQ x15 x3 x7 x11).c, x8, x9, x10, (sQ x15 x3 x7 x11).d, x12, x13, x14, (sQ x15 x3 x7 x11).a] := rfl

theorem salsaR0 (x0 x1 x2 x3 x4 x5 x6 x7 x8 x9 x10 x11 x12 x13 x14 x15 : W32) :
    salsaQr 0 1 2 3 [x0, x1, x2, x3, x4, x5, x6, x7, x8, x9, x10, x11, x12, x13, x14, x15] =
      .ok [(sQ x0 x1 x2 x3).a, (sQ x0 x1 x2 x3).b, (sQ x0 x1 x2 x3).c, (sQ x0 x1 x2 x3).d, x4, x5, x6, x7, x8, x9, x10, x11, x12, x13, x14, x15] := rfl

theorem salsaR1 (x0 x1 x2 x3 x4 x5 x6 x7 x8 x9 x10 x11 x12 x13 x14 x15 : W32) :
    salsaQr 5 6 7 4 [x0, x1, x2, x3, x4, x5, x6, x7, x8, x9, x10, x11, x12, x13, x14, x15] =
      .ok [x0, x1, x2, x3, (sQ x5 x6 x7 x4).d, (sQ x5 x6 x7 x4).a, (sQ x5 x6 x7 x4).b, (sQ x5 x6 x7 x4).c, x8, x9, x10, x11, x12, x13, x14, x15] := rfl

theorem salsaR2 (x0 x1 x2 x3 x4 x5 x6 x7 x8 x9 x10 x11 x12 x13 x14 x15 : W32) :
    salsaQr 10 11 8 9 [x0, x1, x2, x3, x4, x5, x6, x7, x8, x9, x10, x11, x12, x13, x14, x15] =
      .ok [x0, x1, x2, x3, x4, x5, x6, x7, (sQ x10 x11 x8 x9).c, (sQ x10 x11 x8 x9).d, (sQ x10 x11 x8 x9).a, (sQ x10 x11 x8 x9).b, x12, x13, x14, x15] := rfl

theorem salsaR3 (x0 x1 x2 x3 x4 x5 x6 x7 x8 x9 x10 x11 x12 x13 x14 x15 : W32) :
    salsaQr 15 12 13 14 [x0, x1, x2, x3, x4, x5, x6, x7, x8, x9, x10, x11, x12, x13, x14, x15] =
      .ok [x0, x1, x2, x3, x4, x5, x6, x7, x8, x9, x10, x11, (sQ x15 x12 x13 x14).b, (sQ x15 x12 x13 x14).c, (sQ x15 x12 x13 x14).d, (sQ x15 x12 x13 x14).a] := rfl

theorem chacha0 (x0 x1 x2 x3 x4 x5 x6 x7 x8 x9 x10 x11 x12 x13 x14 x15 : W32) :
    chachaQr 0 4 8 12 [x0, x1, x2, x3, x4, x5, x6, x7, x8, x9, x10, x11, x12, x13, x14, x15] =
      .ok [(cQ x0 x4 x8 x12).a, x1, x2, x3, (cQ x0 x4 x8 x12).b, x5, x6, x7, (cQ x0 x4 x8 x12).c, x9, x10, x11, (cQ x0 x4 x8 x12).d, x13, x14, x15] := rfl

theorem chacha1 (x0 x1 x2 x3 x4 x5 x6 x7 x8 x9 x10 x11 x12 x13 x14 x15 : W32) :
    chachaQr 1 5 9 13 [x0, x1, x2, x3, x4, x5, x6, x7, x8, x9, x10, x11, x12, x13, x14, x15] =
      .ok [x0, (cQ x1 x5 x9 x13).a, x2, x3, x4, (cQ x1 x5 x9 x13).b, x6, x7, x8, (cQ x1 x5 x9 x13).c, x10, x11, x12, (cQ x1 x5 x9 x13).d, x14, x15] := rfl

theorem chacha2 (x0 x1 x2 x3 x4 x5 x6 x7 x8 x9 x10 x11 x12 x13 x14 x15 : W32) :
    chachaQr 2 6 10 14 [x0, x1, x2, x3, x4, x5, x6, x7, x8, x9, x10, x11, x12, x13, x14, x15] =
      .ok [x0, x1, (cQ x2 x6 x10 x14).a, x3, x4, x5, (cQ x2 x6 x10 x14).b, x7, x8, x9, (cQ x2 x6 x10 x14).c, x11, x12, x13, (cQ x2 x6 x10 x14).d, x15] := rfl

theorem chacha3 (x0 x1 x2 x3 x4 x5 x6 x7 x8 x9 x10 x11 x12 x13 x14 x15 : W32) :
    chachaQr 3 7 11 15 [x0, x1, x2, x3, x4, x5, x6, x7, x8, x9, x10, x11, x12, x13, x14, x15] =
      .ok [x0, x1, x2, (cQ x3 x7 x11 x15).a, x4, x5, x6, (cQ x3 x7 x11 x15).b, x8, x9, x10, (cQ x3 x7 x11 x15).c, x12, x13, x14, (cQ x3 x7 x11 x15).d] := rfl

theorem chacha4 (x0 x1 x2 x3 x4 x5 x6 x7 x8 x9 x10 x11 x12 x13 x14 x15 : W32) :
    chachaQr 0 5 10 15 [x0, x1, x2, x3, x4, x5, x6, x7, x8, x9, x10, x11, x12, x13, x14, x15] =
      .ok [(cQ x0 x5 x10 x15).a, x1, x2, x3, x4, (cQ x0 x5 x10 x15).b, x6, x7, x8, x9, (cQ x0 x5 x10 x15).c, x11, x12, x13, x14, (cQ x0 x5 x10 x15).d] := rfl

theorem chacha5 (x0 x1 x2 x3 x4 x5 x6 x7 x8 x9 x10 x11 x12 x13 x14 x15 : W32) :
    chachaQr 1 6 11 12 [x0, x1, x2, x3, x4, x5, x6, x7, x8, x9, x10, x11, x12, x13, x14, x15] =
      .ok [x0, (cQ x1 x6 x11 x12).a, x2, x3, x4, x5, (cQ x1 x6 x11 x12).b, x7, x8, x9, x10, (cQ x1 x6 x11 x12).c, (cQ x1 x6 x11 x12).d, x13, x14, x15] := rfl

theorem chacha6 (x0 x1 x2 x3 x4 x5 x6 x7 x8 x9 x10 x11 x12 x13 x14 x15 : W32) :
    chachaQr 2 7 8 13 [x0, x1, x2, x3, x4, x5, x6, x7, x8, x9, x10, x11, x12, x13, x14, x15] =
      .ok [x0, x1, (cQ x2 x7 x8 x13).a, x3, x4, x5, x6, (cQ x2 x7 x8 x13).b, (cQ x2 x7 x8 x13).c, x9, x10, x11, x12, (cQ x2 x7 x8 x13).d, x14, x15] := rfl

theorem chacha7 (x0 x1 x2 x3 x4 x5 x6 x7 x8 x9 x10 x11 x12 x13 x14 x15 : W32) :
    chachaQr 3 4 9 14 [x0, x1, x2, x3, x4, x5, x6, x7, x8, x9, x10, x11, x12, x13, x14, x15] =
      .ok [x0, x1, x2, (cQ x3 x4 x9 x14).a, (cQ x3 x4 x9 x14).b, x5, x6, x7, x8, (cQ x3 x4 x9 x14).c, x10, x11, x12, x13, (cQ x3 x4 x9 x14).d, x15] := rfl

theorem quarterround_eq (y : Fin 4 → W32) :
    quarterround y 0 = (sQ (y 0) (y 1) (y 2) (y 3)).a ∧ quarterround y 1 = (sQ (y 0) (y 1) (y 2) (y 3)).b ∧
    quarterround y 2 = (sQ (y 0) (y 1) (y 2) (y 3)).c ∧ quarterround y 3 = (sQ (y 0) (y 1) (y 2) (y 3)).d := by
  unfold quarterround sQ
  simp only [rot_eq _ _ (show 7 < 32 by decide), rot_eq _ _ (show 9 < 32 by decide),
    rot_eq _ _ (show 13 < 32 by decide), rot_eq _ _ (show 18 < 32 by decide), and_self]

theorem chachaQuarter_eq (y : Fin 4 → W32) :
    chachaQuarter y 0 = (cQ (y 0) (y 1) (y 2) (y 3)).a ∧ chachaQuarter y 1 = (cQ (y 0) (y 1) (y 2) (y 3)).b ∧
    chachaQuarter y 2 = (cQ (y 0) (y 1) (y 2) (y 3)).c ∧ chachaQuarter y 3 = (cQ (y 0) (y 1) (y 2) (y 3)).d := by
  unfold chachaQuarter cQ
  simp only [rot_eq _ _ (show 16 < 32 by decide), rot_eq _ _ (show 12 < 32 by decide),
    rot_eq _ _ (show 8 < 32 by decide), rot_eq _ _ (show 7 < 32 by decide), and_self]

attribute [local irreducible] sQ cQ quarterround chachaQuarter

theorem qa (y : Fin 4 → W32) : (sQ (y 0) (y 1) (y 2) (y 3)).a = quarterround y 0 := (quarterround_eq y).1.symm
theorem qb (y : Fin 4 → W32) : (sQ (y 0) (y 1) (y 2) (y 3)).b = quarterround y 1 := (quarterround_eq y).2.1.symm
theorem qc (y : Fin 4 → W32) : (sQ (y 0) (y 1) (y 2) (y 3)).c = quarterround y 2 := (quarterround_eq y).2.2.1.symm
theorem qd (y : Fin 4 → W32) : (sQ (y 0) (y 1) (y 2) (y 3)).d = quarterround y 3 := (quarterround_eq y).2.2.2.symm
theorem ca (y : Fin 4 → W32) : (cQ (y 0) (y 1) (y 2) (y 3)).a = chachaQuarter y 0 := (chachaQuarter_eq y).1.symm
theorem cb (y : Fin 4 → W32) : (cQ (y 0) (y 1) (y 2) (y 3)).b = chachaQuarter y 1 := (chachaQuarter_eq y).2.1.symm
theorem cc (y : Fin 4 → W32) : (cQ (y 0) (y 1) (y 2) (y 3)).c = chachaQuarter y 2 := (chachaQuarter_eq y).2.2.1.symm
theorem cd (y : Fin 4 → W32) : (cQ (y 0) (y 1) (y 2) (y 3)).d = chachaQuarter y 3 := (chachaQuarter_eq y).2.2.2.symm

theorem salsaCol_eq (M : Mat) : salsaCol (words M) = .ok (words (columnround M)) := by
  unfold salsaCol words
  rw [salsaC0, Out.bind_ok, salsaC1, Out.bind_ok, salsaC2, Out.bind_ok, salsaC3]
  exact congrArg Out.ok (congr (congrArg List.cons (qa (fun k => M (0 + k) 0))) (congr (congrArg List.cons (qd (fun k => M (1 + k) 1))) (congr (congrArg List.cons (qc (fun k => M (2 + k) 2))) (congr (congrArg List.cons (qb (fun k => M (3 + k) 3))) (congr (congrArg List.cons (qb (fun k => M (0 + k) 0))) (congr (congrArg List.cons (qa (fun k => M (1 + k) 1))) (congr (congrArg List.cons (qd (fun k => M (2 + k) 2))) (congr (congrArg List.cons (qc (fun k => M (3 + k) 3))) (congr (congrArg List.cons (qc (fun k => M (0 + k) 0))) (congr (congrArg List.cons (qb (fun k => M (1 + k) 1))) (congr (congrArg List.cons (qa (fun k => M (2 + k) 2))) (congr (congrArg List.cons (qd (fun k => M (3 + k) 3))) (congr (congrArg List.cons (qd (fun k => M (0 + k) 0))) (congr (congrArg List.cons (qc (fun k => M (1 + k) 1))) (congr (congrArg List.cons (qb (fun k => M (2 + k) 2))) (congr (congrArg List.cons (qa (fun k => M (3 + k) 3))) (rfl)))))))))))))))))

theorem salsaRow_eq (M : Mat) : salsaRow (words M) = .ok (words (rowround M)) := by
  unfold salsaRow words
  rw [salsaR0, Out.bind_ok, salsaR1, Out.bind_ok, salsaR2, Out.bind_ok, salsaR3]
  exact congrArg Out.ok (congr (congrArg List.cons (qa (fun k => M 0 (0 + k)))) (congr (congrArg List.cons (qb (fun k => M 0 (0 + k)))) (congr (congrArg List.cons (qc (fun k => M 0 (0 + k)))) (congr (congrArg List.cons (qd (fun k => M 0 (0 + k)))) (congr (congrArg List.cons (qd (fun k => M 1 (1 + k)))) (congr (congrArg List.cons (qa (fun k => M 1 (1 + k)))) (congr (congrArg List.cons (qb (fun k => M 1 (1 + k)))) (congr (congrArg List.cons (qc (fun k => M 1 (1 + k)))) (congr (congrArg List.cons (qc (fun k => M 2 (2 + k)))) (congr (congrArg List.cons (qd (fun k => M 2 (2 + k)))) (congr (congrArg List.cons (qa (fun k => M 2 (2 + k)))) (congr (congrArg List.cons (qb (fun k => M 2 (2 + k)))) (congr (congrArg List.cons (qb (fun k => M 3 (3 + k)))) (congr (congrArg List.cons (qc (fun k => M 3 (3 + k)))) (congr (congrArg List.cons (qd (fun k => M 3 (3 + k)))) (congr (congrArg List.cons (qa (fun k => M 3 (3 + k)))) (rfl)))))))))))))))))


/-- The first and the second half of a ChaCha double round. -/
def chachaHalf1 (x : List W32) : Out (List W32) := do
  let x ← chachaQr 0 4 8 12 x
  let x ← chachaQr 1 5 9 13 x
  let x ← chachaQr 2 6 10 14 x
  chachaQr 3 7 11 15 x

def chachaHalf2 (x : List W32) : Out (List W32) := do
  let x ← chachaQr 0 5 10 15 x
  let x ← chachaQr 1 6 11 12 x
  let x ← chachaQr 2 7 8 13 x
  chachaQr 3 4 9 14 x

theorem chachaHalf1_eq (M : Mat) : chachaHalf1 (words M) = .ok (words (chachaColumns M)) := by
  unfold chachaHalf1 words
  rw [chacha0, Out.bind_ok, chacha1, Out.bind_ok, chacha2, Out.bind_ok, chacha3]
  exact congrArg Out.ok (congr (congrArg List.cons (ca (fun k => M k 0))) (congr (congrArg List.cons (ca (fun k => M k 1))) (congr (congrArg List.cons (ca (fun k => M k 2))) (congr (congrArg List.cons (ca (fun k => M k 3))) (congr (congrArg List.cons (cb (fun k => M k 0))) (congr (congrArg List.cons (cb (fun k => M k 1))) (congr (congrArg List.cons (cb (fun k => M k 2))) (congr (congrArg List.cons (cb (fun k => M k 3))) (congr (congrArg List.cons (cc (fun k => M k 0))) (congr (congrArg List.cons (cc (fun k => M k 1))) (congr (congrArg List.cons (cc (fun k => M k 2))) (congr (congrArg List.cons (cc (fun k => M k 3))) (congr (congrArg List.cons (cd (fun k => M k 0))) (congr (congrArg List.cons (cd (fun k => M k 1))) (congr (congrArg List.cons (cd (fun k => M k 2))) (congr (congrArg List.cons (cd (fun k => M k 3))) (rfl)))))))))))))))))

theorem chachaHalf2_eq (M : Mat) : chachaHalf2 (words M) = .ok (words (chachaDiagonals M)) := by
  unfold chachaHalf2 words
  rw [chacha4, Out.bind_ok, chacha5, Out.bind_ok, chacha6, Out.bind_ok, chacha7]
  exact congrArg Out.ok (congr (congrArg List.cons (ca (fun k => M k (0 + k)))) (congr (congrArg List.cons (ca (fun k => M k (1 + k)))) (congr (congrArg List.cons (ca (fun k => M k (2 + k)))) (congr (congrArg List.cons (ca (fun k => M k (3 + k)))) (congr (congrArg List.cons (cb (fun k => M k (3 + k)))) (congr (congrArg List.cons (cb (fun k => M k (0 + k)))) (congr (congrArg List.cons (cb (fun k => M k (1 + k)))) (congr (congrArg List.cons (cb (fun k => M k (2 + k)))) (congr (congrArg List.cons (cc (fun k => M k (2 + k)))) (congr (congrArg List.cons (cc (fun k => M k (3 + k)))) (congr (congrArg List.cons (cc (fun k => M k (0 + k)))) (congr (congrArg List.cons (cc (fun k => M k (1 + k)))) (congr (congrArg List.cons (cd (fun k => M k (1 + k)))) (congr (congrArg List.cons (cd (fun k => M k (2 + k)))) (congr (congrArg List.cons (cd (fun k => M k (3 + k)))) (congr (congrArg List.cons (cd (fun k => M k (0 + k)))) (rfl)))))))))))))))))

end Kryptos.Stream
