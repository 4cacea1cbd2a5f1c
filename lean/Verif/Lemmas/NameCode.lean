import Verif.Model.OMGroup
import Mathlib.Tactic.Ring
import Mathlib.Data.List.Basic

/-! # Names as numbers

The kernel compares two strings slowly and splits one into characters very slowly; it compares numbers fast. Here a name
becomes a number, and the promotions and the checks of a wiring are computed with these numbers. Every shortcut is
proved equal to the definition of the model it stands for: nothing here is part of the model. -/

namespace PyCycle.OM
namespace NC

noncomputable section

/-- The bytes of a name. -/
def bytes (s : String) : List ℕ := s.toByteArray.data.toList.rec [] fun a _ r => a.toNat :: r

/-- Digits to a number. -/
def val (l : List ℕ) : ℕ := l.rec 0 fun a _ r => Nat.add (Nat.succ a) (Nat.mul 257 r)

/-- The bytes of a name as one number. -/
def code (s : String) : ℕ := val (bytes s)

/-- Number of bytes. -/
def len (s : String) : ℕ := (bytes s).rec 0 fun _ _ r => Nat.succ r

/-- Are all bytes those of ASCII characters? -/
def ascii (s : String) : Bool := (bytes s).rec true fun a _ r => (Nat.blt a 128).rec false r

theorem bytes_eq (s : String) : bytes s = s.toByteArray.data.toList.map UInt8.toNat := by
  unfold bytes
  induction s.toByteArray.data.toList with
  | nil => rfl
  | cons a l ih => exact congrArg (a.toNat :: ·) ih

theorem bytes_lt (s : String) : ∀ a ∈ bytes s, a < 256 := by
  intro a ha
  rw [bytes_eq, List.mem_map] at ha
  obtain ⟨b, -, rfl⟩ := ha
  exact b.toNat_lt

theorem bytes_inj {s t : String} (h : bytes s = bytes t) : s = t := by
  rw [bytes_eq, bytes_eq] at h
  have h := List.map_injective_iff.mpr (fun a b => UInt8.toNat_inj.mp) h
  apply String.toByteArray_inj.mp
  exact ByteArray.ext (Array.toList_inj.mp h)

theorem val_cons (a : ℕ) (l : List ℕ) : val (a :: l) = (a + 1) + 257 * val l := rfl

theorem val_inj : ∀ {l m : List ℕ}, (∀ a ∈ l, a < 256) → (∀ a ∈ m, a < 256) → val l = val m → l = m
  | [], [], _, _, _ => rfl
  | [], b :: m, _, _, h => by rw [val_cons] at h; change 0 = _ at h; omega
  | a :: l, [], _, _, h => by rw [val_cons] at h; change _ = 0 at h; omega
  | a :: l, b :: m, hl, hm, h => by
    rw [val_cons, val_cons] at h
    have ha := hl a (List.mem_cons_self ..)
    have hb := hm b (List.mem_cons_self ..)
    have e : a = b ∧ val l = val m := by omega
    rw [e.1, val_inj (fun x hx => hl x (List.mem_cons_of_mem _ hx)) (fun x hx => hm x (List.mem_cons_of_mem _ hx)) e.2]

theorem code_inj {s t : String} : code s = code t ↔ s = t :=
  ⟨fun h => bytes_inj (val_inj (bytes_lt s) (bytes_lt t) h), fun h => h ▸ rfl⟩

theorem beq_iff {s t : String} : Nat.beq (code s) (code t) = true ↔ s = t := by
  rw [Nat.beq_eq, code_inj]

theorem beq_decide (s t : String) : Nat.beq (code s) (code t) = decide (s = t) := by
  rw [Bool.eq_iff_iff, beq_iff, decide_eq_true_iff]

theorem len_eq (s : String) : len s = (bytes s).length := by
  unfold len
  induction bytes s with
  | nil => rfl
  | cons a l ih => exact congrArg Nat.succ ih

theorem ascii_lt {s : String} (h : ascii s = true) : ∀ a ∈ bytes s, a < 128 := by
  unfold ascii at h
  revert h
  induction bytes s with
  | nil => intro _ a ha; cases ha
  | cons b l ih =>
    intro h a ha
    change (Nat.blt b 128).rec false (l.rec true fun a _ r => (Nat.blt a 128).rec false r) = true at h
    cases hb : Nat.blt b 128 with
    | false => rw [hb] at h; cases h
    | true =>
      rw [hb] at h
      rcases List.mem_cons.mp ha with rfl | ha
      · simpa [Nat.blt_eq] using hb
      · exact ih h a ha

/-- The bytes of an ASCII character. -/
theorem encode_ascii {c : Char} (h : ∀ a ∈ String.utf8EncodeChar c, a.toNat < 128) :
    (String.utf8EncodeChar c).map UInt8.toNat = [c.toNat] := by
  unfold String.utf8EncodeChar at h ⊢
  simp only at h ⊢
  split at h
  · rename_i hv
    rw [if_pos hv]
    have : c.val.toNat < 256 := by omega
    simpa using Nat.mod_eq_of_lt this
  · exfalso
    split at h
    · have := h _ (List.mem_cons_self ..)
      simp at this; omega
    · split at h
      · have := h _ (List.mem_cons_self ..)
        simp at this; omega
      · have := h _ (List.mem_cons_self ..)
        simp at this; omega

theorem bytes_ascii {s : String} (h : ascii s = true) : bytes s = s.toList.map Char.toNat := by
  have h := ascii_lt h
  rw [bytes_eq] at h ⊢
  rw [← String.utf8Encode_toList] at h ⊢
  unfold List.utf8Encode at h ⊢
  rw [List.data_toByteArray] at h ⊢
  generalize s.toList = l at h ⊢
  induction l with
  | nil => rfl
  | cons c l ih =>
    simp only [List.flatMap_cons, List.map_append, List.map_cons] at h ⊢
    rw [encode_ascii, ih]
    · rfl
    · intro a ha
      exact h a (List.mem_append.mpr (Or.inr ha))
    · intro a ha
      exact h _ (List.mem_append.mpr (Or.inl (List.mem_map_of_mem ha)))

/-! ## Patterns -/

theorem val_take : ∀ (l m : List ℕ), (∀ a ∈ l, a < 256) → (∀ a ∈ m, a < 256) →
    (val m % 257 ^ l.length = val l ↔ l <+: m)
  | [], m, _, _ => by simp [val]; omega
  | a :: l, [], _, _ => by
    rw [val_cons]
    have : val ([] : List ℕ) = 0 := rfl
    rw [this, Nat.zero_mod]
    constructor
    · intro h; omega
    · intro h; simp at h
  | a :: l, b :: m, hl, hm => by
    have ha := hl a (List.mem_cons_self ..)
    have hb := hm b (List.mem_cons_self ..)
    rw [List.cons_prefix_cons, ← val_take l m (fun x hx => hl x (List.mem_cons_of_mem _ hx))
      (fun x hx => hm x (List.mem_cons_of_mem _ hx)), val_cons, val_cons, List.length_cons, pow_succ']
    have e : (b + 1 + 257 * val m) % (257 * 257 ^ l.length) = (b + 1) + 257 * (val m % 257 ^ l.length) := by
      rw [Nat.mod_mul]
      have h1 : (b + 1 + 257 * val m) % 257 = b + 1 := by omega
      have h2 : (b + 1 + 257 * val m) / 257 = val m := by omega
      rw [h1, h2]
    rw [e]
    omega

theorem val_drop : ∀ (n : ℕ) (m : List ℕ), (∀ a ∈ m, a < 256) → val (m.drop n) = val m / 257 ^ n
  | 0, m, _ => by simp
  | n + 1, [], _ => by simp [val]
  | n + 1, b :: m, hm => by
    have hb := hm b (List.mem_cons_self ..)
    rw [List.drop_succ_cons, val_drop n m (fun x hx => hm x (List.mem_cons_of_mem _ hx)), val_cons, pow_succ',
      ← Nat.div_div_eq_div_mul]
    congr 1
    omega

/-- Does pattern `m` occur at one of the first `n + 1` places? -/
def occ (m k : ℕ) (n v : ℕ) : Bool :=
  n.rec (fun v => Nat.beq (Nat.mod v k) m) (fun _ r v => (Nat.beq (Nat.mod v k) m).rec (r (Nat.div v 257)) true) v

/-- Pattern match, on numbers. -/
def fitsA (v : String) (p : Prom) : Bool :=
  p.rec (fun _ => false) (fun _ _ => false)
    (fun p => Nat.beq (Nat.mod (code v) (Nat.pow 257 (len p))) (code p))
    (fun s => Nat.beq (Nat.div (code v) (Nat.pow 257 (Nat.sub (len v) (len s)))) (code s))
    (fun m => occ (code m) (Nat.pow 257 (len m)) (len v) (code v))

/-- The text of a pattern. -/
def text (p : Prom) : String := p.rec (fun v => v) (fun v _ => v) (fun v => v) (fun v => v) (fun v => v)

/-- Pattern match. -/
def fits (v : String) (p : Prom) : Bool :=
  Bool.rec (Prom.fits v p) (fitsA v p) (Bool.rec false (ascii (text p)) (ascii v))

theorem prefix_iff {p v : String} (hp : ascii p = true) (hv : ascii v = true) :
    bytes p <+: bytes v ↔ p.toList <+: v.toList := by
  rw [bytes_ascii hp, bytes_ascii hv]
  constructor
  · rintro ⟨t, ht⟩
    rw [List.prefix_iff_eq_take]
    have := congrArg (List.take p.toList.length) ht
    rw [← List.map_take, List.take_append_of_le_length (by simp), List.take_of_length_le (by simp)] at this
    exact List.map_injective_iff.mpr (fun a b h => Char.toNat_inj.mp h) this
  · rintro ⟨t, ht⟩
    exact ⟨t.map Char.toNat, by rw [← ht, List.map_append]⟩

theorem occ_iff {l : List ℕ} (hl : ∀ a ∈ l, a < 256) : ∀ (n : ℕ) (m : List ℕ), (∀ a ∈ m, a < 256) → m.length = n →
    (occ (val l) (257 ^ l.length) n (val m) = true ↔ l <:+: m)
  | 0, m, hm, hn => by
    have : m = [] := List.length_eq_zero_iff.mp hn
    subst this
    change Nat.beq (val [] % 257 ^ l.length) (val l) = true ↔ _
    rw [Nat.beq_eq, val_take l [] hl hm]
    simp
  | n + 1, [], hm, hn => by simp at hn
  | n + 1, b :: m, hm, hn => by
    change (Nat.beq (val (b :: m) % 257 ^ l.length) (val l)).rec (occ (val l) (257 ^ l.length) n (val (b :: m) / 257)) true
      = true ↔ _
    have hm' : ∀ a ∈ m, a < 256 := fun x hx => hm x (List.mem_cons_of_mem _ hx)
    have hb := hm b (List.mem_cons_self ..)
    have e : val (b :: m) / 257 = val m := by rw [val_cons]; omega
    rw [e, List.infix_cons_iff, ← occ_iff hl n m hm' (by simpa using hn), ← val_take l (b :: m) hl hm, ← Nat.beq_eq]
    cases Nat.beq (val (b :: m) % 257 ^ l.length) (val l) <;> simp

theorem infix_iff {p v : String} (hp : ascii p = true) (hv : ascii v = true) :
    bytes p <:+: bytes v ↔ p.toList <:+: v.toList := by
  rw [bytes_ascii hp, bytes_ascii hv]
  constructor
  · rintro ⟨a, b, h⟩
    have h2 := congrArg (fun l => List.take p.toList.length (List.drop a.length l)) h
    simp only [List.append_assoc, List.drop_left] at h2
    rw [List.take_append_of_le_length (by simp), List.take_of_length_le (by simp), ← List.map_drop, ← List.map_take] at h2
    rw [List.map_injective_iff.mpr (fun a b h => Char.toNat_inj.mp h) h2]
    exact (List.take_prefix _ _).isInfix.trans (List.drop_suffix _ _).isInfix
  · rintro ⟨a, b, h⟩
    exact ⟨a.map Char.toNat, b.map Char.toNat, by rw [← h]; simp⟩

theorem occurs_iff (m : List Char) : ∀ v, occurs m v = true ↔ m <:+: v
  | [] => by simp [occurs]
  | c :: v => by
    rw [List.infix_cons_iff, ← occurs_iff m v]
    simp [occurs]

theorem fits_eq (v : String) (p : Prom) : fits v p = p.fits v := by
  unfold fits
  cases hv : ascii v with
  | false => rfl
  | true =>
    cases hp : ascii (text p) with
    | false => rfl
    | true =>
      change fitsA v p = _
      cases p with
      | var w => rfl
      | as w t => rfl
      | pre p =>
        change ascii p = true at hp
        change Nat.beq (code v % 257 ^ len p) (code p) = p.toList.isPrefixOf v.toList
        rw [Bool.eq_iff_iff, Nat.beq_eq, List.isPrefixOf_iff_prefix, ← prefix_iff hp hv, len_eq]
        exact val_take _ _ (bytes_lt _) (bytes_lt _)
      | suf s =>
        change ascii s = true at hp
        change Nat.beq (code v / 257 ^ (len v - len s)) (code s) = s.toList.isSuffixOf v.toList
        rw [Bool.eq_iff_iff, Nat.beq_eq, List.isSuffixOf_iff_suffix, List.suffix_iff_eq_drop, len_eq, len_eq]
        unfold code
        rw [← val_drop _ _ (bytes_lt v)]
        have e : val ((bytes v).drop ((bytes v).length - (bytes s).length)) = val (bytes s)
            ↔ (bytes v).drop ((bytes v).length - (bytes s).length) = bytes s :=
          ⟨fun h => val_inj (fun a ha => bytes_lt v a (List.mem_of_mem_drop ha)) (bytes_lt s) h, fun h => by rw [h]⟩
        rw [e, bytes_ascii hp, bytes_ascii hv, List.length_map, List.length_map, ← List.map_drop]
        exact ⟨fun h => (List.map_injective_iff.mpr (fun a b h => Char.toNat_inj.mp h) h).symm, fun h => by rw [← h]⟩
      | mid m =>
        change ascii m = true at hp
        change occ (code m) (257 ^ len m) (len v) (code v) = occurs m.toList v.toList
        rw [Bool.eq_iff_iff, occurs_iff, ← infix_iff hp hv, len_eq, len_eq]
        exact occ_iff (bytes_lt m) _ _ (bytes_lt v) rfl

/-! ## Promotions -/

/-- Exact entry. -/
def exact (c : ℕ) (ps : List Prom) (v : String) : Option String :=
  ps.rec none fun p _ r => p.rec (fun w => (Nat.beq (code w) c).rec r (some v)) (fun w t => (Nat.beq (code w) c).rec r (some t))
    (fun _ => r) (fun _ => r) (fun _ => r)

/-- Some pattern matches. -/
def anyFits (v : String) (ps : List Prom) : Bool := ps.rec false fun p _ r => (fits v p).rec r true

/-- The promoted name, or `d`. -/
def promD (ps : List Prom) (v d : String) : String :=
  (exact (code v) ps v).rec ((anyFits v ps).rec d v) (fun t => t)

theorem exact_eq (ps : List Prom) (v : String) : exact (code v) ps v = ps.findSome? (Prom.exact v) := by
  induction ps with
  | nil => rfl
  | cons p ps ih =>
    rw [List.findSome?_cons, ← ih]
    cases p with
    | var w =>
      change (Bool.rec (exact (code v) ps v) (some v) (Nat.beq (code w) (code v)) : Option String) = _
      rw [beq_decide]
      by_cases h : w = v <;> simp [Prom.exact, h]
    | as w t =>
      change (Bool.rec (exact (code v) ps v) (some t) (Nat.beq (code w) (code v)) : Option String) = _
      rw [beq_decide]
      by_cases h : w = v <;> simp [Prom.exact, h]
    | pre w => rfl
    | suf w => rfl
    | mid w => rfl

theorem anyFits_eq (v : String) (ps : List Prom) : anyFits v ps = ps.any (Prom.fits v) := by
  induction ps with
  | nil => rfl
  | cons p ps ih =>
    change (Bool.rec (anyFits v ps) true (fits v p) : Bool) = _
    rw [fits_eq, List.any_cons, ih]
    cases p.fits v <;> rfl

theorem promD_eq (ps : List Prom) (v d : String) : promD ps v d = (promoted ps v).getD d := by
  unfold promD promoted
  rw [exact_eq, anyFits_eq]
  cases ps.findSome? (Prom.exact v) with
  | some t => rfl
  | none => cases ps.any (Prom.fits v) <;> rfl

/-- Name of an input in the group. -/
def inName (s : Decl) (v : String) : String := promD s.promI v (s.name ++ "." ++ v)
/-- Name of an output in the group. -/
def outName (s : Decl) (v : String) : String := promD s.promO v (s.name ++ "." ++ v)

theorem inName_eq (s : Decl) : inName s = s.inName := funext fun _ => promD_eq ..
theorem outName_eq (s : Decl) : outName s = s.outName := funext fun _ => promD_eq ..

/-! ## Lists of names -/

/-- Membership. -/
def mem (n : ℕ) (l : List String) : Bool := l.rec false fun a _ r => (Nat.beq n (code a)).rec r true

theorem mem_iff {n : String} {l : List String} : mem (code n) l = true ↔ n ∈ l := by
  induction l with
  | nil => simp [mem]
  | cons a l ih =>
    change Bool.rec (mem (code n) l) true (Nat.beq (code n) (code a)) = true ↔ _
    rw [beq_decide, List.mem_cons, ← ih]
    by_cases h : n = a <;> simp [h]

theorem mem_decide (n : String) (l : List String) : mem (code n) l = decide (n ∈ l) := by
  rw [Bool.eq_iff_iff, mem_iff, decide_eq_true_iff]

/-- No name twice. -/
def nodup (l : List String) : Bool := l.rec true fun a t r => (mem (code a) t).rec r false

theorem nodup_iff {l : List String} : nodup l = true ↔ l.Nodup := by
  induction l with
  | nil => simp [nodup]
  | cons a l ih =>
    change Bool.rec (nodup l) false (mem (code a) l) = true ↔ _
    rw [mem_decide, List.nodup_cons, ← ih]
    by_cases h : a ∈ l <;> simp [h]

/-- All elements pass. -/
def all {α : Type} (f : α → Bool) (l : List α) : Bool := l.rec true fun a _ r => (f a).rec false r
/-- Some element passes. -/
def any {α : Type} (f : α → Bool) (l : List α) : Bool := l.rec false fun a _ r => (f a).rec r true

theorem all_iff {α : Type} {f : α → Bool} {l : List α} : all f l = true ↔ ∀ a ∈ l, f a = true := by
  induction l with
  | nil => simp [all]
  | cons a l ih =>
    change Bool.rec false (all f l) (f a) = true ↔ _
    rw [List.forall_mem_cons, ← ih]
    cases f a <;> simp

theorem any_iff {α : Type} {f : α → Bool} {l : List α} : any f l = true ↔ ∃ a ∈ l, f a = true := by
  induction l with
  | nil => simp [any]
  | cons a l ih =>
    change Bool.rec (any f l) true (f a) = true ↔ _
    rw [List.exists_mem_cons_iff, ← ih]
    cases f a <;> simp

/-! ## Wirings -/

/-- Names of all outputs. -/
def outs (w : Wiring) : List String := w.subs.flatMap fun s => s.outs.map (outName s)
/-- Names of all inputs. -/
def ins (w : Wiring) : List String := w.subs.flatMap fun s => s.ins.map (inName s)

theorem outs_eq (w : Wiring) : outs w = w.outs := by
  unfold outs Wiring.outs; simp only [outName_eq]
theorem ins_eq (w : Wiring) : ins w = w.ins := by
  unfold ins Wiring.ins; simp only [inName_eq]

/-- The source of a connection. -/
def from_ (c : ℕ) (d : String) (l : List (String × String)) : String :=
  l.rec d fun p _ r => (Nat.beq (code p.2) c).rec r p.1

/-- The name an input takes its value from. -/
def src (w : Wiring) (n : String) : String := (mem (code n) (outs w)).rec (from_ (code n) n w.conns) n

theorem from_eq (n d : String) (l : List (String × String)) :
    from_ (code n) d l = ((l.find? fun c => c.2 = n).map (·.1)).getD d := by
  induction l with
  | nil => rfl
  | cons p l ih =>
    change (Bool.rec (from_ (code n) d l) p.1 (Nat.beq (code p.2) (code n)) : String) = _
    rw [beq_decide, ih, List.find?_cons]
    by_cases h : p.2 = n <;> simp [h]

theorem src_eq (w : Wiring) (n : String) : src w n = w.src n := by
  unfold src Wiring.src
  rw [mem_decide, outs_eq, from_eq]
  by_cases h : n ∈ w.outs <;> simp [h]

/-- `Wiring.Wired`, computed. -/
def wired (w : Wiring) : Bool :=
  Bool.rec false (Bool.rec false (Bool.rec false
    (all (fun c => Bool.rec false (Bool.rec false (Bool.rec true false (mem (code c.2) (outs w))) (mem (code c.2) (ins w)))
      (mem (code c.1) (outs w))) w.conns)
    (nodup (w.conns.map (·.2)))) (nodup (outs w))) (nodup (w.subs.map (·.name)))

theorem rec_and {a b : Bool} : (Bool.rec false b a : Bool) = true ↔ a = true ∧ b = true := by
  cases a <;> simp
theorem rec_not {a : Bool} : (Bool.rec true false a : Bool) = true ↔ ¬a = true := by
  cases a <;> simp

theorem wired_iff {w : Wiring} : wired w = true ↔ w.Wired := by
  unfold wired Wiring.Wired
  simp only [rec_and, rec_not, nodup_iff, all_iff, mem_iff, outs_eq, ins_eq]

/-- Are two entries the same? -/
def same (p q : Prom) : Bool :=
  p.rec (fun v => q.rec (fun w => Nat.beq (code v) (code w)) (fun _ _ => false) (fun _ => false) (fun _ => false) (fun _ => false))
    (fun v t => q.rec (fun _ => false) (fun w u => Bool.rec false (Nat.beq (code t) (code u)) (Nat.beq (code v) (code w)))
      (fun _ => false) (fun _ => false) (fun _ => false))
    (fun v => q.rec (fun _ => false) (fun _ _ => false) (fun w => Nat.beq (code v) (code w)) (fun _ => false) (fun _ => false))
    (fun v => q.rec (fun _ => false) (fun _ _ => false) (fun _ => false) (fun w => Nat.beq (code v) (code w)) (fun _ => false))
    (fun v => q.rec (fun _ => false) (fun _ _ => false) (fun _ => false) (fun _ => false) (fun w => Nat.beq (code v) (code w)))

theorem same_iff {p q : Prom} : same p q = true ↔ p = q := by
  cases p <;> cases q <;> simp [same, rec_and, code_inj]

/-- Is an entry the exact one of a variable? -/
def isExact (c : ℕ) (p : Prom) : Bool :=
  p.rec (fun w => Nat.beq (code w) c) (fun w _ => Nat.beq (code w) c) (fun _ => false) (fun _ => false) (fun _ => false)

theorem isExact_eq (v : String) (p : Prom) : isExact (code v) p = (p.exact v).isSome := by
  cases p with
  | var w =>
    change Nat.beq (code w) (code v) = _
    rw [beq_decide]; by_cases h : w = v <;> simp [Prom.exact, h]
  | as w t =>
    change Nat.beq (code w) (code v) = _
    rw [beq_decide]; by_cases h : w = v <;> simp [Prom.exact, h]
  | pre w => rfl
  | suf w => rfl
  | mid w => rfl

/-- First element that passes. -/
def first {α : Type} (f : α → Bool) (d : Option α) (l : List α) : Option α := l.rec d fun a _ r => (f a).rec r (some a)

theorem first_eq {α : Type} (f : α → Bool) (d : Option α) (l : List α) :
    first f d l = match l.find? f with | some a => some a | none => d := by
  induction l with
  | nil => rfl
  | cons a l ih =>
    change (Bool.rec (first f d l) (some a) (f a) : Option α) = _
    rw [List.find?_cons, ih]
    cases f a <;> rfl

/-- The entry that promotes a variable. -/
def taker (ps : List Prom) (v : String) : Option Prom := first (isExact (code v)) (first (fits v) none ps) ps

theorem taker_eq (ps : List Prom) (v : String) : taker ps v = OM.taker ps v := by
  unfold taker OM.taker
  rw [first_eq, first_eq]
  have e1 : (isExact (code v)) = fun p => (p.exact v).isSome := funext (isExact_eq v)
  have e2 : fits v = Prom.fits v := funext (fits_eq v)
  rw [e1, e2]
  cases List.find? (fun p => (Prom.exact v p).isSome) ps with
  | some p => rfl
  | none => cases List.find? (Prom.fits v) ps <;> rfl

/-- An entry promotes one of the variables. -/
def takes (ps : List Prom) (vs : List String) (p : Prom) : Bool :=
  any (fun v => (taker ps v).rec false fun q => same q p) vs

theorem takes_iff {ps : List Prom} {vs : List String} {p : Prom} :
    takes ps vs p = true ↔ ∃ v ∈ vs, OM.taker ps v = some p := by
  unfold takes
  rw [any_iff]
  refine exists_congr fun v => and_congr_right fun _ => ?_
  rw [taker_eq]
  cases OM.taker ps v with
  | none => simp
  | some q => change same q p = true ↔ _; rw [same_iff]; simp

/-- `Decl.PromotesFound`, computed. -/
def found (s : Decl) : Bool :=
  Bool.rec false
    (all (fun p => Bool.rec (Bool.rec false (takes s.promI s.ins p) (any (same p) s.promI)) true (takes s.promO s.outs p)) s.promO)
    (all (fun p => Bool.rec (Bool.rec false (takes s.promO s.outs p) (any (same p) s.promO)) true (takes s.promI s.ins p)) s.promI)

theorem rec_or {a b : Bool} : (Bool.rec b true a : Bool) = true ↔ a = true ∨ b = true := by
  cases a <;> simp

theorem any_same {p : Prom} {ps : List Prom} : any (same p) ps = true ↔ p ∈ ps := by
  rw [any_iff]; simp [same_iff]

theorem found_iff {s : Decl} : found s = true ↔ s.PromotesFound := by
  unfold found Decl.PromotesFound
  simp only [rec_and, rec_or, all_iff, takes_iff, any_same]

/-- `Wiring.Accepted`, computed. -/
def accepted (w : Wiring) : Bool := Bool.rec false (all found w.subs) (wired w)

theorem accepted_iff {w : Wiring} : accepted w = true ↔ w.Accepted := by
  unfold accepted Wiring.Accepted
  simp only [rec_and, all_iff, found_iff, wired_iff]

/-- Inputs left to the outside, with repetitions. -/
def ext (w : Wiring) : List String := ((ins w).map (src w)).filter fun n => Bool.rec true false (mem (code n) (outs w))

theorem mem_ext {w : Wiring} {n : String} : n ∈ ext w ↔ n ∈ w.externals := by
  unfold ext Wiring.externals
  have e : src w = w.src := funext (src_eq w)
  rw [List.mem_dedup, ins_eq, e, outs_eq, List.mem_filter, List.mem_filter]
  refine and_congr_right fun _ => ?_
  rw [rec_not, mem_iff]
  simp

/-- Inclusion. -/
def sub (l m : List String) : Bool := all (fun n => mem (code n) m) l

theorem sub_iff {l m : List String} : sub l m = true ↔ l ⊆ m := by
  unfold sub
  simp only [all_iff, mem_iff]
  rfl

theorem sub_ext {w : Wiring} {l : List String} : sub (ext w) l = true ↔ w.externals ⊆ l := by
  rw [sub_iff]
  exact ⟨fun h n hn => h (mem_ext.mpr hn), fun h n hn => h (mem_ext.mp hn)⟩

theorem ext_sub {w : Wiring} {l : List String} : sub l (ext w) = true ↔ l ⊆ w.externals := by
  rw [sub_iff]
  exact ⟨fun h n hn => mem_ext.mp (h hn), fun h n hn => mem_ext.mpr (h hn)⟩

end

/-! The kernel uses these to decide. -/

noncomputable instance (priority := 2000) (w : Wiring) : Decidable w.Wired := decidable_of_iff _ wired_iff
noncomputable instance (priority := 2000) (w : Wiring) : Decidable w.Accepted := decidable_of_iff _ accepted_iff
noncomputable instance (priority := 2000) (s : Decl) : Decidable s.PromotesFound := decidable_of_iff _ found_iff

noncomputable instance (priority := 2000) (s : Decl) (v x : String) : Decidable (s.inName v = x) :=
  decidable_of_iff (Nat.beq (code (inName s v)) (code x) = true) (by rw [beq_iff, inName_eq])
noncomputable instance (priority := 2000) (s : Decl) (v x : String) : Decidable (s.outName v = x) :=
  decidable_of_iff (Nat.beq (code (outName s v)) (code x) = true) (by rw [beq_iff, outName_eq])
noncomputable instance (priority := 2000) (w : Wiring) (v x : String) : Decidable (w.src v = x) :=
  decidable_of_iff (Nat.beq (code (src w v)) (code x) = true) (by rw [beq_iff, src_eq])
noncomputable instance (priority := 2000) (w : Wiring) (n : String) : Decidable (n ∈ w.outs) :=
  decidable_of_iff (mem (code n) (outs w) = true) (by rw [mem_iff, outs_eq])
noncomputable instance (priority := 2000) (w : Wiring) (n : String) : Decidable (n ∈ w.ins) :=
  decidable_of_iff (mem (code n) (ins w) = true) (by rw [mem_iff, ins_eq])
noncomputable instance (priority := 2000) (w : Wiring) (n : String) : Decidable (n ∈ w.externals) :=
  decidable_of_iff (mem (code n) (ext w) = true) (by rw [mem_iff, mem_ext])
noncomputable instance (priority := 2000) (w : Wiring) (l : List String) : Decidable (w.externals ⊆ l) :=
  decidable_of_iff _ sub_ext
noncomputable instance (priority := 2000) (w : Wiring) (l : List String) : Decidable (l ⊆ w.externals) :=
  decidable_of_iff _ ext_sub
noncomputable instance (priority := 2000) (w : Wiring) (l : List String) : Decidable (w.outs ⊆ l) :=
  decidable_of_iff (sub (outs w) l = true) (by rw [sub_iff, outs_eq])
noncomputable instance (priority := 2000) (w : Wiring) : Decidable w.outs.Nodup :=
  decidable_of_iff (nodup (outs w) = true) (by rw [nodup_iff, outs_eq])
noncomputable instance (priority := 2000) (w : Wiring) : Decidable (w.subs.map (·.name)).Nodup :=
  decidable_of_iff _ nodup_iff
noncomputable instance (priority := 2000) (w : Wiring) (p : String → Prop) [DecidablePred p] : Decidable (∀ n ∈ w.outs, p n) :=
  decidable_of_iff (∀ n ∈ outs w, p n) (by rw [outs_eq])
noncomputable instance (priority := 2000) (w : Wiring) (p : String → Prop) [DecidablePred p] :
    Decidable (∀ n ∈ w.externals, p n) :=
  decidable_of_iff (∀ n ∈ ext w, p n) (by simp only [mem_ext])
noncomputable instance (priority := 2000) (w : Wiring) (p : String → Prop) [DecidablePred p] :
    Decidable (∀ n ∈ w.outs ++ w.ins, p n) :=
  decidable_of_iff (∀ n ∈ outs w ++ ins w, p n) (by rw [outs_eq, ins_eq])

end NC
end PyCycle.OM
