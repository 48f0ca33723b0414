import Verif.Proof.Asm.Main

/-!
# Some choice of places is allowed
-/

namespace Secp.Model.Asm
open Secp.Model

/-- A check of `Stmt.Allowed`, for local variables from address `lim` -/
def Stmt.allowedB (b : Stmt) (lim : ℕ) (σ : ℕ → Loc) : Bool :=
  b.outs.all (fun o => match σ o.1 with
    | .reg r => decide (r ∉ b.clob) && decide (r ≠ .rsp)
    | .slot a => decide (lim ≤ a)
    | _ => false) &&
  b.outs.all (fun o => b.outs.all fun o' => decide (o.1 = o'.1) || decide (σ o.1 ≠ σ o'.1)) &&
  b.ins.all (fun i => match i.2 with
    | .g => (match σ i.1 with
      | .reg r => decide (r ∉ b.clob)
      | .slot a => decide (lim ≤ a)
      | .imm _ => true
      | _ => false)
    | .fixed r => decide (σ i.1 = .reg r)
    | .imm v => decide (σ i.1 = .imm v)) &&
  b.outs.all (fun o => !o.2 || b.ins.all fun i => decide (σ o.1 ≠ σ i.1))

theorem Stmt.allowed_of {b : Stmt} {lim : ℕ} {σ : ℕ → Loc} {obj : ℕ → Prop} (hobj : ∀ a, obj a → a < lim)
    (h : b.allowedB lim σ = true) : b.Allowed obj σ := by
  unfold allowedB at h
  simp only [Bool.and_eq_true, List.all_eq_true, Bool.or_eq_true, decide_eq_true_eq, Bool.not_eq_true'] at h
  obtain ⟨⟨⟨h1, h2⟩, h3⟩, h4⟩ := h
  refine ⟨fun k e hk => ?_, fun k e k' e' hk hk' hne => ?_, fun k hk => ?_, fun k r hk => ?_, fun k v hk => ?_,
    fun k c k' hk hk' => ?_⟩
  · have := h1 _ hk
    dsimp only at this
    split at this
    · next r e => rw [Bool.and_eq_true] at this; exact Or.inl ⟨r, e, by simpa using this⟩
    · next a e => exact Or.inr ⟨a, e, fun ho => absurd (hobj a ho) (by simpa using this)⟩
    · cases this
  · exact (h2 _ hk _ hk').resolve_left hne
  · have := h3 _ hk
    dsimp only at this
    split at this
    · next r e => exact Or.inl ⟨r, e, by simpa using this⟩
    · next a e => exact Or.inr (Or.inl ⟨a, e, fun ho => absurd (hobj a ho) (by simpa using this)⟩)
    · next v e => exact Or.inr (Or.inr ⟨v, e⟩)
    · cases this
  · have := h3 _ hk
    simpa using this
  · have := h3 _ hk
    simpa using this
  · have := (h4 _ hk)
    simp only [Bool.true_eq_false, false_or] at this
    exact this _ hk'

theorem Stmt.exec_of {b : Stmt} {obj : ℕ → Prop} {σ : ℕ → Loc} {v : ℕ → ℕ} {s : St} (hs : s.Words)
    (hσ : b.Allowed obj σ) (hv : ∀ k c, (k, c) ∈ b.ins → s.get (σ k) = v k ∧ v k < 2 ^ 64) :
    ∃ w m', b.Exec obj v s.mem w m' :=
  ⟨_, _, σ, s, hs, hσ, hv, fun _ _ => rfl, fun _ _ _ => rfl, fun _ _ => rfl⟩

/-- Places for `reduceA`: the early outputs in registers, `m3` in the register of the input, the rest in memory -/
def placesA (k : ℕ) : Loc :=
  if k = 0 then .reg .rbx else if k = 1 then .reg .rcx else if k = 2 then .reg .r15 else if k = 3 then .reg .rsi
  else if k = 7 then .reg .rsi else if k = 8 then .imm scNC0 else if k = 9 then .imm scNC1 else .slot (64 + 8 * k)

/-- Places for `reduceB`: `p3` in the place of the input `m0`, `p4` in a register that holds the input `m6` -/
def placesB (k : ℕ) : Loc :=
  if k = 0 then .reg .rbx else if k = 1 then .reg .rcx else if k = 2 then .reg .r15 else if k = 3 then .slot 104
  else if k = 4 then .reg .rsi else if k = 11 then .reg .rsi else if k = 12 then .imm scNC0
  else if k = 13 then .imm scNC1 else .slot (64 + 8 * k)

/-- Places for `reduceC`: `c` in the register of the pointer -/
def placesC (k : ℕ) : Loc :=
  if k = 0 then .reg .rdi else if k = 6 then .reg .rdi else if k = 7 then .imm scNC0
  else if k = 8 then .imm scNC1 else .slot (64 + 8 * k)

theorem placesA_allowed : reduceA.Allowed (Array 0 8) placesA :=
  Stmt.allowed_of (lim := 64) (by rintro a ⟨i, hi, rfl⟩; omega) (by decide +kernel)

theorem placesB_allowed : reduceB.Allowed (fun _ => False) placesB :=
  Stmt.allowed_of (lim := 64) (fun _ h => h.elim) (by decide +kernel)

theorem placesC_allowed : reduceC.Allowed (Array 0 4) placesC :=
  Stmt.allowed_of (lim := 64) (by rintro a ⟨i, hi, rfl⟩; omega) (by decide +kernel)

/-- A memory with words from a list from address 0 -/
def memOf (l : List ℕ) (a : ℕ) : ℕ := l.getD (a / 8) 0

theorem memOf_lt {l : List ℕ} (h : ∀ x ∈ l, x < 2 ^ 64) (a : ℕ) : memOf l a < 2 ^ 64 := by
  unfold memOf
  rw [List.getD_eq_getElem?_getD]
  cases e : l[a / 8]? with
  | none => norm_num
  | some x => exact h x (List.mem_of_getElem? e)

theorem exists_mul512 {a b : Sc4} (ha : a.Words) (hb : b.Words) : ∃ l, Mul512 a b l := by
  obtain ⟨a0, a1, a2, a3⟩ := ha
  obtain ⟨b0, b1, b2, b3⟩ := hb
  refine ⟨_, ⟨fun r => match r with | .rdx => 32 | .rsi => 64 | _ => 0, false,
    memOf [a.d0, a.d1, a.d2, a.d3, b.d0, b.d1, b.d2, b.d3], fun _ => 0⟩, ⟨fun r => ?_, memOf_lt ?_, fun _ => by norm_num⟩,
    by simp [sc4At, memOf], by simp [sc4At, memOf], Or.inl (show 0 + 32 ≤ 64 by norm_num), rfl⟩
  · dsimp only
    split <;> norm_num
  · intro x hx
    fin_cases hx <;> assumption

theorem get_imm (s : St) (v : ℕ) : s.get (.imm v) = v := rfl

theorem existsA {l : U512} (hl : l.Words) : ∃ m v w m' : ℕ → ℕ, u512At m 0 = l ∧ v 7 = 0 ∧ v 8 = scNC0 ∧ v 9 = scNC1 ∧
    reduceA.Exec (Array 0 8) v m w m' := by
  have hc0 : scNC0 < 2 ^ 64 := by decide
  have hc1 : scNC1 < 2 ^ 64 := by decide
  obtain ⟨l0, l1, l2, l3, l4, l5, l6, l7⟩ := hl
  obtain ⟨m, hm, hml⟩ : ∃ m : ℕ → ℕ, (∀ a, m a < 2 ^ 64) ∧ u512At m 0 = l :=
    ⟨memOf [l.l0, l.l1, l.l2, l.l3, l.l4, l.l5, l.l6, l.l7],
      memOf_lt (by intro x hx; fin_cases hx <;> assumption), by simp [u512At, memOf]⟩
  obtain ⟨v, v7, v8, v9⟩ : ∃ v : ℕ → ℕ, v 7 = 0 ∧ v 8 = scNC0 ∧ v 9 = scNC1 :=
    ⟨fun k => if k = 8 then scNC0 else if k = 9 then scNC1 else 0, by simp, by simp, by simp⟩
  obtain ⟨w, m', hA⟩ := Stmt.exec_of (v := v) (s := ⟨fun _ => 0, false, m, fun _ => 0⟩)
    ⟨fun _ => by norm_num, hm, fun _ => by norm_num⟩ placesA_allowed (by
      intro k c hk
      simp only [reduceA, List.mem_cons, Prod.mk.injEq, List.not_mem_nil, or_false] at hk
      rcases hk with ⟨rfl, rfl⟩ | ⟨rfl, rfl⟩ | ⟨rfl, rfl⟩
      · rw [v7]; exact ⟨by simp [placesA, St.get], by norm_num⟩
      · rw [v8]; exact ⟨by rw [placesA_allowed.imm 8 scNC0 (by simp [reduceA]), get_imm], hc0⟩
      · rw [v9]; exact ⟨by rw [placesA_allowed.imm 9 scNC1 (by simp [reduceA]), get_imm], hc1⟩)
  exact ⟨m, v, w, m', hml, v7, v8, v9, hA⟩

theorem existsB {x : ℕ → ℕ} (hx : ∀ i < 7, x i < 2 ^ 64) : ∃ m v w m' : ℕ → ℕ, (∀ i < 7, v (i + 5) = x i) ∧
    v 12 = scNC0 ∧ v 13 = scNC1 ∧ reduceB.Exec (fun _ => False) v m w m' := by
  have hc0 : scNC0 < 2 ^ 64 := by decide
  have hc1 : scNC1 < 2 ^ 64 := by decide
  obtain ⟨v, hv, v12, v13⟩ : ∃ v : ℕ → ℕ, (∀ i < 7, v (i + 5) = x i) ∧ v 12 = scNC0 ∧ v 13 = scNC1 :=
    ⟨fun k => if k = 12 then scNC0 else if k = 13 then scNC1 else x (k - 5),
      fun i hi => by dsimp only; rw [if_neg (by omega), if_neg (by omega)]; simp, by simp, by simp⟩
  have v5 : v 5 = x 0 := hv 0 (by norm_num)
  have v6 : v 6 = x 1 := hv 1 (by norm_num)
  have v7 : v 7 = x 2 := hv 2 (by norm_num)
  have v8 : v 8 = x 3 := hv 3 (by norm_num)
  have v9 : v 9 = x 4 := hv 4 (by norm_num)
  have v10 : v 10 = x 5 := hv 5 (by norm_num)
  have v11 : v 11 = x 6 := hv 6 (by norm_num)
  obtain ⟨w, m', hB⟩ := Stmt.exec_of (v := v)
    (s := ⟨fun r => if r = .rsi then x 6 else 0, false, fun a => memOf [x 0, x 1, x 2, x 3, x 4, x 5] (a - 104),
      fun _ => 0⟩)
    ⟨fun r => by
      dsimp only
      split_ifs
      · exact hx 6 (by norm_num)
      · norm_num, fun a => memOf_lt (by
        intro y hy
        fin_cases hy
        exacts [hx 0 (by norm_num), hx 1 (by norm_num), hx 2 (by norm_num), hx 3 (by norm_num), hx 4 (by norm_num),
          hx 5 (by norm_num)]) _,
      fun _ => by norm_num⟩ placesB_allowed (by
      intro k c hk
      simp only [reduceB, List.mem_cons, Prod.mk.injEq, List.not_mem_nil, or_false] at hk
      rcases hk with ⟨rfl, rfl⟩ | ⟨rfl, rfl⟩ | ⟨rfl, rfl⟩ | ⟨rfl, rfl⟩ | ⟨rfl, rfl⟩ | ⟨rfl, rfl⟩ | ⟨rfl, rfl⟩ | ⟨rfl, rfl⟩ | ⟨rfl, rfl⟩
      · rw [v5]; exact ⟨by simp [placesB, St.get, memOf], hx 0 (by norm_num)⟩
      · rw [v6]; exact ⟨by simp [placesB, St.get, memOf], hx 1 (by norm_num)⟩
      · rw [v7]; exact ⟨by simp [placesB, St.get, memOf], hx 2 (by norm_num)⟩
      · rw [v8]; exact ⟨by simp [placesB, St.get, memOf], hx 3 (by norm_num)⟩
      · rw [v9]; exact ⟨by simp [placesB, St.get, memOf], hx 4 (by norm_num)⟩
      · rw [v10]; exact ⟨by simp [placesB, St.get, memOf], hx 5 (by norm_num)⟩
      · rw [v11]; exact ⟨by simp [placesB, St.get, memOf], hx 6 (by norm_num)⟩
      · rw [v12]; exact ⟨by rw [placesB_allowed.imm 12 scNC0 (by simp [reduceB]), get_imm], hc0⟩
      · rw [v13]; exact ⟨by rw [placesB_allowed.imm 13 scNC1 (by simp [reduceB]), get_imm], hc1⟩)
  exact ⟨_, v, w, m', hv, v12, v13, hB⟩

theorem existsC {x : ℕ → ℕ} (hx : ∀ i < 5, x i < 2 ^ 64) : ∃ m v w m' : ℕ → ℕ, (∀ i < 5, v (i + 1) = x i) ∧
    v 6 = 0 ∧ v 7 = scNC0 ∧ v 8 = scNC1 ∧ reduceC.Exec (Array 0 4) v m w m' := by
  have hc0 : scNC0 < 2 ^ 64 := by decide
  have hc1 : scNC1 < 2 ^ 64 := by decide
  obtain ⟨v, hv, v6, v7, v8⟩ : ∃ v : ℕ → ℕ, (∀ i < 5, v (i + 1) = x i) ∧ v 6 = 0 ∧ v 7 = scNC0 ∧ v 8 = scNC1 :=
    ⟨fun k => if k = 7 then scNC0 else if k = 8 then scNC1 else if k = 6 then 0 else x (k - 1),
      fun i hi => by dsimp only; rw [if_neg (by omega), if_neg (by omega), if_neg (by omega)]; simp, by simp, by simp, by simp⟩
  have v1 : v 1 = x 0 := hv 0 (by norm_num)
  have v2 : v 2 = x 1 := hv 1 (by norm_num)
  have v3 : v 3 = x 2 := hv 2 (by norm_num)
  have v4 : v 4 = x 3 := hv 3 (by norm_num)
  have v5 : v 5 = x 4 := hv 4 (by norm_num)
  obtain ⟨w, m', hC⟩ := Stmt.exec_of (v := v)
    (s := ⟨fun _ => 0, false, fun a => memOf [x 0, x 1, x 2, x 3, x 4] (a - 72), fun _ => 0⟩)
    ⟨fun r => by norm_num, fun a => memOf_lt (by
        intro y hy
        fin_cases hy
        exacts [hx 0 (by norm_num), hx 1 (by norm_num), hx 2 (by norm_num), hx 3 (by norm_num), hx 4 (by norm_num)]) _,
      fun _ => by norm_num⟩ placesC_allowed (by
      intro k c hk
      simp only [reduceC, List.mem_cons, Prod.mk.injEq, List.not_mem_nil, or_false] at hk
      rcases hk with ⟨rfl, rfl⟩ | ⟨rfl, rfl⟩ | ⟨rfl, rfl⟩ | ⟨rfl, rfl⟩ | ⟨rfl, rfl⟩ | ⟨rfl, rfl⟩ | ⟨rfl, rfl⟩ | ⟨rfl, rfl⟩
      · rw [v1]; exact ⟨by simp [placesC, St.get, memOf], hx 0 (by norm_num)⟩
      · rw [v2]; exact ⟨by simp [placesC, St.get, memOf], hx 1 (by norm_num)⟩
      · rw [v3]; exact ⟨by simp [placesC, St.get, memOf], hx 2 (by norm_num)⟩
      · rw [v4]; exact ⟨by simp [placesC, St.get, memOf], hx 3 (by norm_num)⟩
      · rw [v5]; exact ⟨by simp [placesC, St.get, memOf], hx 4 (by norm_num)⟩
      · rw [v6]; exact ⟨by simp [placesC, St.get], by norm_num⟩
      · rw [v7]; exact ⟨by rw [placesC_allowed.imm 7 scNC0 (by simp [reduceC]), get_imm], hc0⟩
      · rw [v8]; exact ⟨by rw [placesC_allowed.imm 8 scNC1 (by simp [reduceC]), get_imm], hc1⟩)
  exact ⟨_, v, w, m', hv, v6, v7, v8, hC⟩

theorem exists_reduce512 {l : U512} (hl : l.Words) : ∃ r, Reduce512 l r := by
  obtain ⟨m₁, v₁, w₁, m₁', hml, v17, v18, v19, hA⟩ := existsA hl
  have hrA := Sc4.redA_spec hl
  have eA := reduceA_exec v17 v18 v19 hA
  rw [hml] at eA
  rw [← eA] at hrA
  dsimp only at hrA
  obtain ⟨a0, a1, a2, a3, a4, a5, a6, -⟩ := hrA
  obtain ⟨m₂, v₂, w₂, m₂', hv₂, v212, v213, hB⟩ := existsB (x := w₁) (by
    intro i hi
    interval_cases i
    exacts [a0, a1, a2, a3, a4, a5, by omega])
  obtain ⟨m₃, v₃, w₃, m₃', hv₃, v36, v37, v38, hC⟩ := existsC (x := w₂) (by
    intro i hi
    obtain ⟨t, ht, -, -, -, ho, -⟩ :=
      Stmt.exec_ideal reduceB_ok (fun _ _ h => absurd h List.not_mem_nil) hB
    have hwt := run_words ht (l := reduceB.code) (by decide)
    interval_cases i
    · rw [← ho 0 true (by decide)]; exact hwt.cell _
    · rw [← ho 1 true (by decide)]; exact hwt.cell _
    · rw [← ho 2 true (by decide)]; exact hwt.cell _
    · rw [← ho 3 false (by decide)]; exact hwt.cell _
    · rw [← ho 4 false (by decide)]; exact hwt.cell _)
  exact ⟨_, 0, 0, m₁, m₁', m₂, m₂', m₃, m₃', v₁, w₁, v₂, w₂, v₃, w₃, hml, v17, v18, v19, hA, hv₂, v212, v213, hB,
    hv₃, v36, v37, v38, hC, rfl⟩

end Secp.Model.Asm
