import Verif.Proof.Asm.ArmSym

/-!
# The symbolic execution describes the run of the machine
-/

namespace Secp.Model.Arm

/-- What the environment has to satisfy -/
structure Env.Ok (E : Env) (D : List S) : Prop where
  sp : 84 ≤ E.s.reg 13 ∧ E.s.reg 13 < 2 ^ 32
  arr : ∀ g, g ≠ Base.stk → E.base g + 40 ≤ 2 ^ 32
  frame : ∀ g, g ≠ Base.stk → ∀ x, InFe (E.base g) x → ¬ Frame E.s x
  reg : ∀ r, E.s.reg r < 2 ^ 32
  mem : ∀ x, E.s.mem x < 2 ^ 32
  V : ∀ k s, D[k]? = some s → E.V k = E.sum s

/-- The state `s` is as described. -/
structure Conc (E : Env) (st : Sym) (s : St) : Prop where
  reg : ∀ r w, st.regs[r]? = some w → s.reg r = E.w w
  cf : ∀ A B, st.cf = some (A, B) → s.cf = decide (2 ^ 32 ≤ E.sum A % 2 ^ 32 + E.sum B % 2 ^ 32)
  stk : ∀ o w, st.stk.lookup o = some w → o < 84 ∧ s.mem (E.base .stk + o) = E.w w
  out : ∀ o w, st.out.lookup o = some w → o < 40 ∧ s.mem (E.base .r + o) = E.w w
  m0 : st.out = [] → ∀ x, ¬ Frame E.s x → s.mem x = E.s.mem x
  mf : ∀ x, ¬ Frame E.s x → ¬ InFe (E.base .r) x → s.mem x = E.s.mem x

variable {E : Env} {D : List S}

theorem idx_V (h : E.Ok D) {s : S} {k : Nat} (hk : D.idxOf? s = some k) : E.V k = E.sum s := by
  apply h.V
  rw [List.idxOf?_eq_some_iff] at hk
  obtain ⟨hl, e, -⟩ := hk
  simp_all

theorem S_lt (s : S) : E.sum s < 2 ^ 64 := Nat.mod_lt _ (by norm_num)

theorem f_lt (h : E.Ok D) (x : F) : E.f x < 2 ^ 32 := by
  cases x <;> simp only [Env.f, u32]
  · exact h.mem _
  · exact h.mem _
  all_goals exact Nat.mod_lt _ (by norm_num)

theorem prods_append (l l' : List (F × F)) : E.prods (l ++ l') = E.prods l + E.prods l' := by
  induction l with
  | nil => simp [Env.prods]
  | cons x l ih => obtain ⟨x, y⟩ := x; simp only [List.cons_append, Env.prods, ih]; ring

theorem shrs_append (l l' : List (Nat × Nat)) : E.shrs (l ++ l') = E.shrs l + E.shrs l' := by
  induction l with
  | nil => simp [Env.shrs]
  | cons x l ih => obtain ⟨x, y⟩ := x; simp only [List.cons_append, Env.shrs, ih]; ring

theorem words_append (l l' : List F) : E.words (l ++ l') = E.words l + E.words l' := by
  induction l with
  | nil => simp [Env.words]
  | cons x l ih => simp only [List.cons_append, Env.words, ih]; ring

theorem S_add (A B : S) : E.sum (A.add B) = (E.sum A + E.sum B) % 2 ^ 64 := by
  unfold Env.sum S.add
  simp only [prods_append, shrs_append, words_append]
  rw [← Nat.add_mod]
  congr 1
  ring

theorem S_noHp (A : S) : E.sum A.noHp % 2 ^ 32 = E.sum A % 2 ^ 32 := by
  unfold Env.sum S.noHp
  simp only [Env.prods]
  omega

theorem S_lo {A B : S} (h : A.noHp = B.noHp) : E.sum A % 2 ^ 32 = E.sum B % 2 ^ 32 := by
  rw [← S_noHp, h, S_noHp]

theorem S_prod (x y : F) : E.sum { prods := [(x, y)] } = E.f x * E.f y % 2 ^ 64 := by
  simp [Env.sum, Env.prods, Env.shrs, Env.words]

theorem S_hp (x y : F) : E.sum { hp := [(x, y)] } = 2 ^ 32 * (E.f x * E.f y) % 2 ^ 64 := by
  simp [Env.sum, Env.prods, Env.shrs, Env.words]

theorem S_word (h : E.Ok D) (x : F) : E.sum { words := [x] } = E.f x := by
  have := f_lt h x
  simp only [Env.sum, Env.prods, Env.shrs, Env.words]
  omega

theorem S_shr (k n : Nat) (h : E.V k < 2 ^ 64) : E.sum { shr := [(k, n)] } = E.V k >>> n := by
  have : E.V k >>> n ≤ E.V k := Nat.shiftRight_le _ _
  simp only [Env.sum, Env.prods, Env.shrs, Env.words, Nat.add_zero, Nat.mul_zero]
  exact Nat.mod_eq_of_lt (lt_of_le_of_lt this h)

theorem toF_val (h : E.Ok D) {w : W} {x : F} (hw : toF D w = some x) : E.w w = E.f x := by
  cases w <;> simp only [toF, Option.some.injEq, reduceCtorEq, Option.map_eq_some_iff] at hw
  · rw [← hw]; rfl
  · obtain ⟨k, h1, rfl⟩ := hw
    simp only [Env.w, Env.f, idx_V h h1]
  · obtain ⟨k, h1, rfl⟩ := hw
    simp only [Env.w, Env.f, idx_V h h1]
    have := S_lt (E := E) (by assumption)
    omega

theorem toS_val (h : E.Ok D) {w : W} {s : S} (hw : toS w = some s) : E.w w = E.sum s % 2 ^ 32 := by
  cases w <;> simp only [toS, Option.some.injEq, reduceCtorEq] at hw
  · rw [← hw, S_word h, Nat.mod_eq_of_lt (f_lt h _)]; rfl
  · rw [← hw]; rfl

theorem asLo_eq {w : W} {s : S} (hw : Sym.asLo w = some s) : w = .lo s := by
  cases w <;> simp_all [Sym.asLo]

theorem asHi_eq {w : W} {s : S} (hw : Sym.asHi w = some s) : w = .hi s := by
  cases w <;> simp_all [Sym.asHi]

theorem asShrlo_eq {w : W} {s : S × Nat} (hw : Sym.asShrlo w = some s) : w = .shrlo s.1 s.2 := by
  cases w <;> simp_all [Sym.asShrlo]
  rw [← hw]; exact ⟨rfl, rfl⟩

theorem asA_eq {w : W} {i : Nat} (hw : Sym.asA w = some i) : w = .f (.a i) := by
  unfold Sym.asA at hw
  split at hw
  · simp_all
  · simp at hw

theorem addr_val (h : E.Ok D) {w : W} {off : Nat} {p : Base × Nat} (hw : Sym.addr off w = some p) :
    E.w w + off = E.base p.1 + p.2 ∧ E.base p.1 + p.2 < 2 ^ 32 := by
  obtain ⟨h1, h2⟩ := h.sp
  unfold Sym.addr at hw
  split at hw
  · split at hw <;> simp only [Option.some.injEq, reduceCtorEq] at hw
    subst hw
    simp only [Env.w, Env.base]
    omega
  · split at hw <;> simp only [Option.some.injEq, reduceCtorEq] at hw
    subst hw
    rename_i g o hne hlt
    have := h.arr g hne
    simp only [Env.w]
    omega
  · simp at hw

/-- Setting a register -/
theorem Conc.set {st : Sym} {s : St} (c : Conc E st s) (r : Nat) {w : W} {v : Nat} (hv : v = E.w w) :
    Conc E (st.set r w) (s.setReg r v) := by
  refine ⟨fun r' w' h' => ?_, c.cf, c.stk, c.out, c.m0, c.mf⟩
  simp only [Sym.set, List.getElem?_set] at h'
  simp only [St.setReg, Function.update_apply]
  by_cases e : r' = r
  · subst e
    rw [if_pos rfl] at h'
    split at h'
    · simp only [Option.some.injEq] at h'; rw [if_pos rfl, hv, h']
    · simp at h'
  · rw [if_neg (Ne.symm e)] at h'
    rw [if_neg e]
    exact c.reg r' w' h'

theorem Conc.load (h : E.Ok D) {st st' : Sym} {s : St} (c : Conc E st s) {d : Nat} {g : Base} {o : Nat}
    (hl : st.load d g o = some st') : Conc E st' (s.setReg d (s.mem (E.base g + o))) := by
  have key : ∀ g, g ≠ Base.stk → st.out = [] → o < 40 → s.mem (E.base g + o) = E.s.mem (E.base g + o) :=
    fun g hg h1 h2 => c.m0 h1 _ (h.frame g hg _ ⟨by omega, by omega⟩)
  unfold Sym.load at hl
  cases g <;> simp only at hl
  · rw [Option.map_eq_some_iff] at hl
    obtain ⟨w, h1, rfl⟩ := hl
    exact c.set d (c.stk _ _ h1).2
  · split at hl <;> simp only [Option.some.injEq, reduceCtorEq] at hl
    rename_i hc
    subst hl
    refine c.set d ?_
    rw [key .a (by simp) hc.1 hc.2.2, Env.w, Env.f, hc.2.1]; rfl
  · split at hl <;> simp only [Option.some.injEq, reduceCtorEq] at hl
    rename_i hc
    subst hl
    refine c.set d ?_
    rw [key .b (by simp) hc.1 hc.2.2, Env.w, Env.f, hc.2.1]; rfl
  · simp at hl

theorem Conc.store (h : E.Ok D) {st st' : Sym} {s : St} (c : Conc E st s) {g : Base} {o : Nat} {w : W} {v : Nat}
    (hv : v = E.w w) (hl : st.store w g o = some st') : Conc E st' (s.setMem (E.base g + o) v) := by
  have hsp := h.sp
  have hfr := h.frame .r (by simp)
  have hd : ∀ o o', o < 84 → o' < 40 → E.base .stk + o ≠ E.base .r + o' := by
    intro o o' h1 h2 e
    refine hfr (E.base .r + o') ⟨by omega, by omega⟩ ?_
    unfold Frame
    rw [← e]
    simp only [Env.base]
    omega
  have key : ∀ (l : List (Nat × W)) (o o' : Nat) (w w' : W), ((o, w) :: l).lookup o' = some w' →
      (o' = o ∧ w' = w) ∨ (o' ≠ o ∧ l.lookup o' = some w') := by
    intro l o o' w w' h'
    rw [List.lookup_cons] at h'
    by_cases e : o' = o
    · left; subst e; simp at h'; exact ⟨rfl, h'.symm⟩
    · right; rw [beq_false_of_ne e] at h'; exact ⟨e, h'⟩
  unfold Sym.store at hl
  cases g <;> simp only at hl
  · split at hl <;> simp only [Option.some.injEq, reduceCtorEq] at hl
    rename_i ho
    subst hl
    have hx : ∀ x, ¬ Frame E.s x → x ≠ E.base .stk + o := by
      intro x hx e
      apply hx
      unfold Frame
      rw [e]
      simp only [Env.base]
      omega
    refine ⟨c.reg, c.cf, fun o' w' h' => ?_, fun o' w' h' => ?_, fun h0 x hx' => ?_, fun x h1 h2 => ?_⟩
    · simp only [St.setMem, Function.update_apply]
      rcases key _ _ _ _ _ h' with ⟨rfl, rfl⟩ | ⟨h1, h2⟩
      · rw [if_pos rfl]; exact ⟨ho, hv⟩
      · rw [if_neg (by omega)]
        exact c.stk _ _ h2
    · simp only [St.setMem, Function.update_apply]
      have := c.out _ _ h'
      rw [if_neg (hd _ _ ho this.1).symm]
      exact this
    · simp only [St.setMem, Function.update_apply]
      rw [if_neg (hx x hx')]
      exact c.m0 h0 x hx'
    · simp only [St.setMem, Function.update_apply]
      rw [if_neg (hx x h1)]
      exact c.mf x h1 h2
  · simp at hl
  · simp at hl
  · split at hl <;> simp only [Option.some.injEq, reduceCtorEq] at hl
    rename_i ho
    subst hl
    refine ⟨c.reg, c.cf, fun o' w' h' => ?_, fun o' w' h' => ?_, fun h0 => by simp at h0, fun x h1 h2 => ?_⟩
    · simp only [St.setMem, Function.update_apply]
      have := c.stk _ _ h'
      rw [if_neg (hd _ _ this.1 ho)]
      exact this
    · simp only [St.setMem, Function.update_apply]
      rcases key _ _ _ _ _ h' with ⟨rfl, rfl⟩ | ⟨h1, h2⟩
      · rw [if_pos rfl]; exact ⟨ho, hv⟩
      · rw [if_neg (by omega)]
        exact c.out _ _ h2
    · simp only [St.setMem, Function.update_apply]
      rw [if_neg (fun e => h2 ⟨by omega, by omega⟩)]
      exact c.mf x h1 h2

theorem Conc.ldm (h : E.Ok D) {g : Base} : ∀ (l : List Nat) (o : Nat) {st st' : Sym} {s : St}, Conc E st s →
    Sym.ldm g o l st = some st' → Conc E st' (s.ldm (E.base g + o) l)
  | [], _, st, st', s, c, hl => by
    simp only [Sym.ldm, Option.some.injEq] at hl
    rw [← hl]; exact c
  | r :: l, o, st, st', s, c, hl => by
    rw [Sym.ldm, Option.bind_eq_some_iff] at hl
    obtain ⟨st1, h1, h2⟩ := hl
    have := Conc.ldm h l (o + 4) (c.load h h1) h2
    rw [← Nat.add_assoc] at this
    exact this

theorem Conc.stm (h : E.Ok D) {g : Base} : ∀ (l : List Nat) (o : Nat) {st st' : Sym} {s : St}, Conc E st s →
    Sym.stm g o l st = some st' → Conc E st' (s.stm (E.base g + o) l)
  | [], _, st, st', s, c, hl => by
    simp only [Sym.stm, Option.some.injEq] at hl
    rw [← hl]; exact c
  | r :: l, o, st, st', s, c, hl => by
    rw [Sym.stm, Option.bind_eq_some_iff] at hl
    obtain ⟨w, h0, hl⟩ := hl
    rw [Option.bind_eq_some_iff] at hl
    obtain ⟨st1, h1, h2⟩ := hl
    have := Conc.stm h l (o + 4) (c.store h (c.reg _ _ h0) h1) h2
    rw [← Nat.add_assoc] at this
    exact this

theorem ldm_reg (r : Nat) : ∀ (l : List Nat) (s : St) (a : Nat), r ∉ l → (s.ldm a l).reg r = s.reg r
  | [], _, _, _ => rfl
  | x :: l, s, a, h => by
    rw [List.mem_cons, not_or] at h
    rw [St.ldm, ldm_reg r l _ _ h.2, St.setReg]
    exact Function.update_of_ne h.1 _ _

/-- The shifted 64-bit number, from its words -/
theorem shr_or {v n sh : Nat} (hv : v < 2 ^ 64) (hs : n + sh = 32) :
    (v % 2 ^ 32) >>> n ||| u32 ((v / 2 ^ 32) <<< sh) = v >>> n % 2 ^ 32 := by
  obtain ⟨h, l, rfl, hl⟩ : ∃ h l, v = l + 2 ^ 32 * h ∧ l < 2 ^ 32 :=
    ⟨v / 2 ^ 32, v % 2 ^ 32, (Nat.mod_add_div _ _).symm, Nat.mod_lt _ (by norm_num)⟩
  have e1 : (l + 2 ^ 32 * h) % 2 ^ 32 = l := by omega
  have e2 : (l + 2 ^ 32 * h) / 2 ^ 32 = h := by omega
  rw [e1, e2, Nat.shiftRight_eq_div_pow, Nat.shiftRight_eq_div_pow, Nat.shiftLeft_eq, u32]
  have e3 : (2 : ℕ) ^ 32 = 2 ^ n * 2 ^ sh := by rw [← pow_add, hs]
  have e4 : h * 2 ^ sh % 2 ^ 32 = 2 ^ sh * (h % 2 ^ n) := by
    rw [e3, Nat.mul_comm h, Nat.mul_comm (2 ^ n), Nat.mul_mod_mul_left]
  have e5 : l / 2 ^ n < 2 ^ sh := by
    rw [Nat.div_lt_iff_lt_mul (by positivity), Nat.mul_comm, ← e3]; exact hl
  rw [e4, Nat.or_comm, ← Nat.two_pow_add_eq_or_of_lt e5]
  have e6 : (l + 2 ^ 32 * h) / 2 ^ n = l / 2 ^ n + 2 ^ sh * h := by
    rw [e3, Nat.mul_assoc, Nat.add_mul_div_left _ _ (by positivity)]
  rw [e6, e3, Nat.mul_comm (2 ^ n), Nat.mod_mul, Nat.add_mul_mod_self_left, Nat.mod_eq_of_lt e5,
    Nat.add_mul_div_left _ _ (by positivity), Nat.div_eq_of_lt e5, Nat.zero_add]
  exact Nat.add_comm _ _

theorem bic_low (v : Nat) : v &&& (0xfc000000 ^^^ 0xffffffff) = v % 2 ^ 26 := by
  rw [show (0xfc000000 ^^^ 0xffffffff : Nat) = 2 ^ 26 - 1 by decide, Nat.and_two_pow_sub_one_eq_mod]

theorem test_eq {c : Prop} [Decidable c] {st st' : Sym} (h : Sym.test c st = some st') : c ∧ st = st' := by
  unfold Sym.test at h
  split at h
  · rename_i hc; simp only [Option.some.injEq] at h; exact ⟨hc, h⟩
  · simp at h

theorem Conc.flag {st : Sym} {s : St} (c : Conc E st s) (r : Nat) {w : W} {v : Nat} (hv : v = E.w w) {A B : S} {b : Bool}
    (hb : b = decide (2 ^ 32 ≤ E.sum A % 2 ^ 32 + E.sum B % 2 ^ 32)) :
    Conc E { st.set r w with cf := some (A, B) } { s.setReg r v with cf := b } := by
  have h := c.set r hv
  refine ⟨h.reg, fun A' B' e => ?_, h.stk, h.out, h.m0, h.mf⟩
  simp only [Option.some.injEq, Prod.mk.injEq] at e
  rw [← e.1, ← e.2]
  exact hb

/-- The high word of a sum -/
theorem hi_add {x y x' y' : Nat} (ex : x % 2 ^ 32 = x' % 2 ^ 32)
    (ey : y % 2 ^ 32 = y' % 2 ^ 32) :
    u32 (x / 2 ^ 32 + y / 2 ^ 32 + bit (decide (2 ^ 32 ≤ x' % 2 ^ 32 + y' % 2 ^ 32))) = (x + y) % 2 ^ 64 / 2 ^ 32 := by
  unfold u32 bit
  rw [← ex, ← ey]
  by_cases h : 2 ^ 32 ≤ x % 2 ^ 32 + y % 2 ^ 32
  · simp only [h, decide_true, if_true]; omega
  · simp only [h, decide_false, Bool.false_eq_true, if_false]; omega

theorem Conc.step (h : E.Ok D) {st st' : Sym} {s : St} (c : Conc E st s) {i : Instr} (hs : st.step D i = some st') :
    Conc E st' (Arm.step s i) := by
  cases i <;> simp only [Sym.step, Option.bind_eq_some_iff, Option.some.injEq, Prod.exists] at hs
  case ldr d n off =>
    obtain ⟨g, o, ⟨w, h1, h2⟩, h3⟩ := hs
    obtain ⟨h4, h5⟩ := addr_val h h2
    have := c.load h h3
    rwa [← h4, ← Nat.mod_eq_of_lt (h4 ▸ h5 : E.w w + off < 2 ^ 32), ← c.reg _ _ h1] at this
  case str t n off =>
    obtain ⟨g, o, ⟨w, h1, h2⟩, w', h6, h3⟩ := hs
    obtain ⟨h4, h5⟩ := addr_val h h2
    have := c.store h (c.reg _ _ h6) h3
    rwa [← h4, ← Nat.mod_eq_of_lt (h4 ▸ h5 : E.w w + off < 2 ^ 32), ← c.reg _ _ h1] at this
  case umull lo hi n m =>
    obtain ⟨x, ⟨w, h1, h2⟩, y, ⟨w', h3, h4⟩, rfl⟩ := hs
    have hx := f_lt h x
    have hy := f_lt h y
    have hm : E.f x * E.f y < 2 ^ 64 := by
      have := Nat.mul_lt_mul'' hx hy
      omega
    have e : s.reg n * s.reg m = E.sum { prods := [(x, y)] } := by
      rw [c.reg _ _ h1, c.reg _ _ h3, toF_val h h2, toF_val h h4, S_prod, Nat.mod_eq_of_lt hm]
    unfold Arm.step
    simp only [e]
    exact (c.set lo rfl).set hi rfl
  case umlal lo hi n m =>
    obtain ⟨x, ⟨w, h1, h2⟩, y, ⟨w', h3, h4⟩, l, ⟨wl, h5, h6⟩, hh, ⟨wh, h7, h8⟩, h9⟩ := hs
    obtain ⟨h10, rfl⟩ := test_eq h9
    have e : u64 (s.reg lo + 2 ^ 32 * s.reg hi + s.reg n * s.reg m) = E.sum (hh.add { prods := [(x, y)] }) := by
      rw [S_add, S_prod, c.reg _ _ h1, c.reg _ _ h3, toF_val h h2, toF_val h h4, c.reg _ _ h5, c.reg _ _ h7,
        asLo_eq h6, asHi_eq h8, Env.w, Env.w, S_lo h10, Nat.mod_add_div, Nat.add_mod_mod]
      rfl
    unfold Arm.step
    simp only [e]
    exact (c.set lo rfl).set hi rfl
  case mla d n m a =>
    obtain ⟨x, ⟨w, h1, h2⟩, y, ⟨w', h3, h4⟩, hh, ⟨wh, h7, h8⟩, rfl⟩ := hs
    refine c.set d ?_
    rw [c.reg _ _ h1, c.reg _ _ h3, toF_val h h2, toF_val h h4, c.reg _ _ h7, asHi_eq h8, Env.w, Env.w, S_add, S_hp, u32]
    have := S_lt (E := E) hh
    generalize E.f x * E.f y = z
    omega
  case bic d n imm =>
    obtain ⟨x, ⟨w, h1, h2⟩, k, h3, h4⟩ := hs
    obtain ⟨rfl, rfl⟩ := test_eq h4
    refine c.set d ?_
    rw [bic_low, c.reg _ _ h1, asLo_eq h2, Env.w, Env.w, Env.f, idx_V h h3]
    omega
  case ubfx d n lsb width =>
    obtain ⟨x, ⟨w, h1, h2⟩, k, h3, h4⟩ := hs
    obtain ⟨⟨rfl, hw⟩, rfl⟩ := test_eq h4
    refine c.set d ?_
    rw [Nat.shiftRight_zero, c.reg _ _ h1, asLo_eq h2, Env.w, Env.w, Env.f, idx_V h h3,
      Nat.mod_mod_of_dvd _ (pow_dvd_pow 2 hw), Nat.mod_eq_of_lt (lt_of_lt_of_le (Nat.mod_lt _ (by positivity))
        (Nat.pow_le_pow_right (by norm_num) hw))]
  case movLsr d m sh =>
    obtain ⟨w, ⟨w', h1, h2⟩, rfl⟩ := hs
    refine c.set d ?_
    rw [c.reg _ _ h1]
    cases w' <;> simp only [Sym.lsr, Option.some.injEq, reduceCtorEq, Option.map_eq_some_iff] at h2
    · rw [← h2]; rfl
    · obtain ⟨k, h3, rfl⟩ := h2
      have e := idx_V h h3
      rw [Env.w, Env.w, S_shr _ _ (by rw [e]; exact S_lt _), e, Nat.shiftRight_eq_div_pow, Nat.shiftRight_eq_div_pow,
        Nat.div_div_eq_div_mul, Nat.div_div_eq_div_mul, Nat.mul_comm]
  case movLsl d m sh =>
    obtain ⟨i, ⟨w, h1, h2⟩, h3⟩ := hs
    obtain ⟨rfl, rfl⟩ := test_eq h3
    refine c.set d ?_
    rw [c.reg _ _ h1, asA_eq h2, Env.w, Env.w, Env.f, Env.f, Nat.shiftLeft_eq, pow_one]
  case movi d imm =>
    obtain ⟨h1, rfl⟩ := test_eq hs
    exact c.set d (Nat.mod_eq_of_lt h1).symm
  case orrLsl d n m sh =>
    obtain ⟨x, x2, ⟨w, h1, h2⟩, hh, ⟨w', h3, h4⟩, k, h5, h6⟩ := hs
    obtain ⟨⟨h7, h8⟩, rfl⟩ := test_eq h6
    refine c.set d ?_
    have e := idx_V h h5
    rw [c.reg _ _ h1, c.reg _ _ h3, asShrlo_eq h2, asHi_eq h4, Env.w, Env.w, Env.w, S_lo h7, shr_or (S_lt _) h8,
      S_shr _ _ (by rw [e]; exact S_lt _), e]
  case adds d n m =>
    obtain ⟨A, ⟨w, h1, h2⟩, B, ⟨w', h3, h4⟩, rfl⟩ := hs
    have e1 : s.reg n = E.sum A % 2 ^ 32 := by rw [c.reg _ _ h1, toS_val h h2]
    have e2 : s.reg m = E.sum B % 2 ^ 32 := by rw [c.reg _ _ h3, toS_val h h4]
    refine c.flag d ?_ (by rw [e1, e2])
    rw [e1, e2, Env.w, S_add, u32]
    omega
  case adc d n m =>
    obtain ⟨A, B, h0, A', ⟨w, h1, h2⟩, B', ⟨w', h3, h4⟩, h5⟩ := hs
    obtain ⟨⟨h6, h7⟩, rfl⟩ := test_eq h5
    refine c.set d ?_
    rw [c.cf _ _ h0, c.reg _ _ h1, c.reg _ _ h3, asHi_eq h2, asHi_eq h4, Env.w, Env.w, Env.w, S_add]
    exact hi_add (S_lo h6) (S_lo h7)
  case adci d n imm =>
    obtain ⟨A, B, h0, A', ⟨w, h1, h2⟩, x, hx, h5⟩ := hs
    obtain ⟨⟨rfl, h6, h7⟩, rfl⟩ := test_eq h5
    refine c.set d ?_
    subst h7
    rw [c.cf _ _ h0, c.reg _ _ h1, asHi_eq h2, Env.w, Env.w, S_add]
    have := hi_add (y := E.sum { words := [x] }) (S_lo (E := E) h6) rfl
    rw [← this]
    rw [S_word h, Nat.div_eq_of_lt (f_lt h x)]
  case add d n m =>
    obtain ⟨A, ⟨w, h1, h2⟩, B, ⟨w', h3, h4⟩, rfl⟩ := hs
    have e1 : s.reg n = E.sum A % 2 ^ 32 := by rw [c.reg _ _ h1, toS_val h h2]
    have e2 : s.reg m = E.sum B % 2 ^ 32 := by rw [c.reg _ _ h3, toS_val h h4]
    refine c.set d ?_
    rw [e1, e2, Env.w, S_add, u32]
    omega
  case addi d n imm =>
    obtain ⟨g, o, ⟨w, h1, h2⟩, rfl⟩ := hs
    obtain ⟨h4, h5⟩ := addr_val h h2
    refine c.set d ?_
    rw [c.reg _ _ h1, h4, Env.w]
    exact Nat.mod_eq_of_lt h5
  case subi d n imm =>
    obtain ⟨g, o, ⟨w, h1, h2⟩, h3⟩ := hs
    obtain ⟨h6, rfl⟩ := test_eq h3
    obtain ⟨h4, h5⟩ := addr_val h h2
    refine c.set d ?_
    simp only [Nat.add_zero] at h4 h5 h6
    rw [c.reg _ _ h1, h4, Env.w, u32]
    omega
  case ldmia n l =>
    obtain ⟨g, o, ⟨w, h1, h2⟩, h3⟩ := hs
    obtain ⟨h4, h5⟩ := addr_val h h2
    have := c.ldm h l o h3
    rwa [← h4, Nat.add_zero, ← c.reg _ _ h1] at this
  case stmia n l =>
    obtain ⟨g, o, ⟨w, h1, h2⟩, h3⟩ := hs
    obtain ⟨h4, h5⟩ := addr_val h h2
    have := c.stm h l o h3
    rwa [← h4, Nat.add_zero, ← c.reg _ _ h1] at this
  case push l =>
    obtain ⟨g, o, ⟨w, h1, h2⟩, h3⟩ := hs
    obtain ⟨h4, h5⟩ := addr_val h h2
    split at h3
    · rename_i hle
      rw [Option.map_eq_some_iff] at h3
      obtain ⟨st1, h6, rfl⟩ := h3
      simp only [Nat.add_zero] at h4 h5
      have e : u32 (s.reg 13 + (2 ^ 32 - 4 * l.length)) = E.base g + (o - 4 * l.length) := by
        rw [c.reg _ _ h1, h4, u32]
        omega
      unfold Arm.step
      simp only [e]
      exact (c.stm h l _ h6).set 13 rfl
    · simp at h3
  case pop l =>
    obtain ⟨g, o, ⟨w, h1, h2⟩, h3⟩ := hs
    obtain ⟨h4, h5⟩ := addr_val h h2
    rw [Option.map_eq_some_iff] at h3
    obtain ⟨st1, h6, rfl⟩ := h3
    have hle : 4 * l.length ≤ o := by
      unfold Sym.addr at h2
      split at h2
      · split at h2 <;> simp only [Option.some.injEq, reduceCtorEq, Prod.mk.injEq] at h2
        omega
      · split at h2 <;> simp only [Option.some.injEq, reduceCtorEq, Prod.mk.injEq] at h2
        omega
      · simp at h2
    simp only at h4 h5
    have e : s.reg 13 = E.base g + (o - 4 * l.length) := by
      rw [c.reg _ _ h1]
      omega
    unfold Arm.step
    simp only [e]
    refine (c.ldm h l _ h6).set 13 ?_
    rw [Env.w, u32]
    omega

theorem Conc.run (h : E.Ok D) : ∀ (l : List Instr) {st st' : Sym} {s : St}, Conc E st s → Sym.run D l st = some st' →
    Conc E st' (Arm.run s l)
  | [], st, st', s, c, hs => by
    simp only [Sym.run, Option.some.injEq] at hs
    rw [← hs]; exact c
  | i :: l, st, st', s, c, hs => by
    rw [Sym.run, Option.bind_eq_some_iff] at hs
    obtain ⟨st1, h1, h2⟩ := hs
    exact Conc.run h l (c.step h h1) h2

end Secp.Model.Arm
