import Verif.Proof.Lang.Exec

/-!
# Symbolic execution: bytes, iterators, tables and results
-/

namespace Verif.Lang

theorem get_nil (x : String) : get x [] = none := rfl

/-! ## Bytes -/

section
variable (m : Machine.Target) (env : Env) (b : UInt8) (n : Nat)

theorem binOp_eq_byte : binOp m env .eq (byte b) (.int .usize n) =
    .val (.bool (decide (b.toNat = n))) env := rfl
theorem binOp_ne_byte : binOp m env .ne (byte b) (.int .usize n) =
    .val (.bool (!decide (b.toNat = n))) env := rfl
theorem binOp_lt_byte : binOp m env .lt (byte b) (.int .usize n) =
    .val (.bool (decide (b.toNat < n))) env := rfl
theorem binOp_le_byte : binOp m env .le (byte b) (.int .usize n) =
    .val (.bool (decide (b.toNat ≤ n))) env := rfl
theorem binOp_gt_byte : binOp m env .gt (byte b) (.int .usize n) =
    .val (.bool (decide (n < b.toNat))) env := rfl
theorem binOp_ge_byte : binOp m env .ge (byte b) (.int .usize n) =
    .val (.bool (decide (n ≤ b.toNat))) env := rfl
theorem binOp_and_byte : binOp m env .and (byte b) (.int .usize n) =
    .val (.int .u8 (b.toNat &&& n)) env := rfl

theorem castTo_u32_byte : castTo m env .u32 (byte b) = .val (.int .u32 b.toNat) env := by
  simp only [castTo, byte, IntTy.bits]
  rw [Nat.mod_eq_of_lt (Nat.lt_trans b.toNat_lt (by decide))]
theorem castTo_usize_byte {m : Machine.Target} (hm : 16 ≤ m.bits) :
    castTo m env .usize (byte b) = .val (.int .usize b.toNat) env := by
  simp only [castTo, byte, IntTy.bits]
  rw [Nat.mod_eq_of_lt (Nat.lt_of_lt_of_le b.toNat_lt
    (Nat.pow_le_pow_right (by decide) (Nat.le_trans (by decide) hm)))]
theorem castTo_usize_u32 : castTo m env .usize (.int .u32 n) =
    .val (.int .usize (n % 2 ^ m.bits)) env := rfl
theorem castTo_u8_char (c : Char) : castTo m env .u8 (.char c) =
    .val (byte (UInt8.ofNat c.toNat)) env := by
  simp [castTo, IntTy.bits, byte]

theorem castTo_u32_be (a c : UInt8) : castTo m env .u32 (.int .u16 (Utf16.be.fromBytes a c)) =
    .val (.int .u32 (Utf16.be.fromBytes a c)) env := by
  have := a.toNat_lt
  have := c.toNat_lt
  simp only [castTo, IntTy.bits, Utf16.be]
  rw [Nat.mod_eq_of_lt (by omega)]
theorem castTo_u32_le (a c : UInt8) : castTo m env .u32 (.int .u16 (Utf16.le.fromBytes a c)) =
    .val (.int .u32 (Utf16.le.fromBytes a c)) env := by
  have := a.toNat_lt
  have := c.toNat_lt
  simp only [castTo, IntTy.bits, Utf16.le]
  rw [Nat.mod_eq_of_lt (by omega)]

theorem from_be_u16 (a c : UInt8) : stdFn m env (.from_be_bytes .u16) (.arr [byte a, byte c]) =
    .val (.int .u16 (Utf16.be.fromBytes a c)) env := by
  have h := toBytes_map [a, c]
  simp only [List.map_cons, List.map_nil] at h
  simp [stdFn, h, Out.ofOption, bind_val, IntTy.size, IntTy.bits, ofLeBytes, Utf16.be]
  omega
theorem from_le_u16 (a c : UInt8) : stdFn m env (.from_le_bytes .u16) (.arr [byte a, byte c]) =
    .val (.int .u16 (Utf16.le.fromBytes a c)) env := by
  have h := toBytes_map [a, c]
  simp only [List.map_cons, List.map_nil] at h
  simp [stdFn, h, Out.ofOption, bind_val, IntTy.size, IntTy.bits, ofLeBytes, Utf16.le]
  omega
theorem from_be_u32 (a b c d : UInt8) :
    stdFn m env (.from_be_bytes .u32) (.arr [byte a, byte b, byte c, byte d]) =
      .val (.int .u32 (Utf32.be.fromBytes a b c d)) env := by
  have h := toBytes_map [a, b, c, d]
  simp only [List.map_cons, List.map_nil] at h
  simp [stdFn, h, Out.ofOption, bind_val, IntTy.size, IntTy.bits, ofLeBytes, Utf32.be]
  omega
theorem from_le_u32 (a b c d : UInt8) :
    stdFn m env (.from_le_bytes .u32) (.arr [byte a, byte b, byte c, byte d]) =
      .val (.int .u32 (Utf32.le.fromBytes a b c d)) env := by
  have h := toBytes_map [a, b, c, d]
  simp only [List.map_cons, List.map_nil] at h
  simp [stdFn, h, Out.ofOption, bind_val, IntTy.size, IntTy.bits, ofLeBytes, Utf32.le]
  omega

theorem to_be_bytes_u32 (c : Char) : method0 m env .to_be_bytes (.int .u32 c.toNat) =
    .val (bytes [(Utf32.be.toBytes c.toNat).1, (Utf32.be.toBytes c.toNat).2.1,
      (Utf32.be.toBytes c.toNat).2.2.1, (Utf32.be.toBytes c.toNat).2.2.2]) env := by
  simp [method0, IntTy.size, IntTy.bits, leBytes, bytes, Utf32.be, ofNat_mod, Nat.div_div_eq_div_mul]
theorem to_le_bytes_u32 (c : Char) : method0 m env .to_le_bytes (.int .u32 c.toNat) =
    .val (bytes [(Utf32.le.toBytes c.toNat).1, (Utf32.le.toBytes c.toNat).2.1,
      (Utf32.le.toBytes c.toNat).2.2.1, (Utf32.le.toBytes c.toNat).2.2.2]) env := by
  simp [method0, IntTy.size, IntTy.bits, leBytes, bytes, Utf32.le, ofNat_mod, Nat.div_div_eq_div_mul]

end

/-! ## Conditions -/

theorem decide_or_assoc (p q r : Prop) [Decidable p] [Decidable q] [Decidable r]
    [Decidable ((p ∨ q) ∨ r)] : decide ((p ∨ q) ∨ r) = decide (p ∨ q ∨ r) := by
  simp [or_assoc]
theorem decide_and_assoc (p q r : Prop) [Decidable p] [Decidable q] [Decidable r]
    [Decidable ((p ∧ q) ∧ r)] : decide ((p ∧ q) ∧ r) = decide (p ∧ q ∧ r) := by
  simp [and_assoc]

/-! ## Chars and strings -/

theorem strBytes_one (c : Char) : strBytes [c] = encodeUtf8 c := by
  simp [strBytes, encodeUtf8]
theorem strLen_one (c : Char) : strLen [c] = (encodeUtf8 c).length := by
  rw [strLen, strBytes_one]

/-- What `from_u32` evaluates to. -/
def optChar : Option Char → Value
  | some c => .variant "Some" [.char c]
  | none => .variant "None" []

theorem from_u32_int (m : Machine.Target) (env : Env) (n : Nat) :
    stdFn m env .from_u32 (.int .u32 n) = .val (optChar (fromU32 n)) env := by
  simp only [stdFn]
  cases fromU32 n <;> rfl
theorem unwrap_optChar (m : Machine.Target) (env : Env) (o : Option Char) :
    method0 m env .unwrap (optChar o) = onRs (unwrap o) fun c => .val (.char c) env := by
  cases o <;> rfl
theorem optChar_some (c : Char) : optChar (some c) = .variant "Some" [.char c] := rfl
theorem optChar_none : optChar none = .variant "None" [] := rfl
theorem unwrap_some (m : Machine.Target) (env : Env) (v : Value) :
    method0 m env .unwrap (.variant "Some" [v]) = .val v env := rfl
theorem unwrap_none (m : Machine.Target) (env : Env) :
    method0 m env .unwrap (.variant "None" []) = .fault .panic := rfl

/-- The buffer after `c.encode_utf8(&mut buf)`. -/
def refill (c : Char) (buf : List Value) : List Value :=
  (encodeUtf8 c).map byte ++ buf.drop (encodeUtf8 c).length

theorem encodeUtf8_length (c : Char) : (encodeUtf8 c).length ≤ 4 := by
  rw [encodeUtf8, String.length_utf8EncodeChar]
  exact c.utf8Size_le_four

theorem refill_length (c : Char) {buf : List Value} (h : buf.length = 4) :
    (refill c buf).length = 4 := by
  have := encodeUtf8_length c
  simp only [refill, List.length_append, List.length_map, List.length_drop, h]
  omega

theorem encodeTo_buf (x : String) (env : Env) (c : Char) {buf : List Value} (h : buf.length = 4) :
    encodeTo (.refMut (.var x)) env (.char c) (.arr buf) =
      .val (.str [c]) (set x (.arr (refill c buf)) env) := by
  simp only [encodeTo, h, if_pos (encodeUtf8_length c)]
  rfl

/-! ## Iterators -/

theorem nextOf_nil (e : Expr) (env : Env) :
    nextOf e env (.iter []) = .val (.variant "None" []) env := rfl
theorem nextOf_cons (x : String) (env : Env) (v : Value) (vs : List Value) :
    nextOf (.var x) env (.iter (v :: vs)) = .val (.variant "Some" [v]) (set x (.iter vs) env) := rfl
theorem nextOf_clone (e : Expr) (env : Env) (v : Value) (vs : List Value) :
    nextOf (.method e .clone []) env (.iter (v :: vs)) = .val (.variant "Some" [v]) env := rfl
theorem clone_val (m : Machine.Target) (env : Env) (v : Value) :
    method0 m env .clone v = .val v env := by
  cases v <;> rfl

/-! ## Tables -/

/-- A table of chars. -/
def charTable (t : List Char) : Value := .arr (t.map .char)

/-- An entry of a table from chars to bytes. -/
def entry (p : Char × UInt8) : Value := .tuple [.char p.1, .int .usize p.2.toNat]

/-- An entry of a table from chars to pairs of bytes. -/
def entry2 (p : Char × UInt8 × UInt8) : Value :=
  .tuple [.char p.1, .arr [.int .usize p.2.1.toNat, .int .usize p.2.2.toNat]]

theorem indexOf_map {α : Type} (f : α → Value) (env : Env) (l : List α) (t : IntTy) (i : Nat) :
    indexOf env (.arr (l.map f)) (.int t i) = onRs (index l i) fun a => .val (f a) env := by
  simp only [indexOf, index_map, ofRs_eq, on_map]
theorem indexOf_char (env : Env) (l : List Char) (t : IntTy) (i : Nat) :
    indexOf env (charTable l) (.int t i) = onRs (index l i) fun c => .val (.char c) env :=
  indexOf_map ..
theorem len_charTable (m : Machine.Target) (env : Env) (l : List Char) :
    method0 m env .len (charTable l) = .val (.int .usize l.length) env := by
  simp [method0, charTable]

theorem indexOf_arr0 (env : Env) (v : Value) (vs : List Value) (t : IntTy) :
    indexOf env (.arr (v :: vs)) (.int t 0) = .val v env := rfl
theorem indexOf_arr1 (env : Env) (v w : Value) (vs : List Value) (t : IntTy) :
    indexOf env (.arr (v :: w :: vs)) (.int t 1) = .val w env := rfl
theorem field_0 (env : Env) (v w : Value) : field env 0 (.tuple [v, w]) = .val v env := rfl
theorem field_1 (env : Env) (v w : Value) : field env 1 (.tuple [v, w]) = .val w env := rfl
theorem field_entry (env : Env) (p : Char × UInt8) :
    field env 1 (entry p) = .val (.int .usize p.2.toNat) env := rfl
theorem field_entry2 (env : Env) (p : Char × UInt8 × UInt8) :
    field env 1 (entry2 p) =
      .val (.arr [.int .usize p.2.1.toNat, .int .usize p.2.2.toNat]) env := rfl

theorem storeElem_lit (env : Env) (out : Bytes) (t : IntTy) (i : Nat) (b : UInt8) :
    storeElem env (bytes out) (.int t i) (.int .usize b.toNat) =
      onRs (setIndex out i b) fun out => .val (bytes out) env := by
  have := storeElem_int env out t .usize i b.toNat (.inr rfl) b.toNat_lt
  rw [UInt8.ofNat_toNat] at this
  exact this

theorem search_loop {α : Type} (t : List α) (key : α → Char) (k : Char) : ∀ (n : Nat) (st : Nat × Nat),
    loop (bsearchBody (t.map key) (fun c => c) k) n st = loop (bsearchBody t key k) n st
  | 0, _ => rfl
  | n + 1, st => by
    unfold loop
    have : bsearchBody (t.map key) (fun c => c) k st = bsearchBody t key k st := by
      unfold bsearchBody
      by_cases h : 1 < st.1
      · rw [if_pos h, if_pos h]
        simp only [index_map]
        cases index t (st.2 + st.1 / 2) <;> rfl
      · rw [if_neg h, if_neg h]
    rw [this]
    cases bsearchBody t key k st with
    | error e => rfl
    | ok c =>
      cases c with
      | next s => exact search_loop t key k n s
      | done r => rfl

theorem search_keys {α : Type} (t : List α) (key : α → Char) (k : Char) :
    binarySearchByKey (t.map key) (fun c => c) k = binarySearchByKey t key k := by
  unfold binarySearchByKey
  rw [List.length_map]
  by_cases h : t.length = 0
  · rw [if_pos h, if_pos h]
  · rw [if_neg h, if_neg h, search_loop]
    cases loop (bsearchBody t key k) (t.length + 1) (t.length, 0) with
    | error e => rfl
    | ok b =>
      simp only [bind, Except.bind, index_map]
      cases index t b <;> rfl

/-- What `binary_search_by_key` evaluates to. -/
def found : Option Nat → Value
  | some i => .variant "Ok" [.int .usize i]
  | none => .variant "Err" []

theorem found_some (i : Nat) : found (some i) = .variant "Ok" [.int .usize i] := rfl
theorem found_none : found none = .variant "Err" [] := rfl

theorem keys_map {α : Type} (f : Value → Out Value) (g : α → Value) (key : α → Char)
    (h : ∀ a, ∃ env, f (g a) = .val (.char (key a)) env) :
    ∀ t : List α, keys f (t.map g) = some (t.map key)
  | [] => rfl
  | a :: t => by
    obtain ⟨env, ha⟩ := h a
    simp only [List.map_cons, keys, ha, keys_map f g key h t]

theorem searchOf_map {α : Type} (env : Env) (env' : Value → Env) (g : α → Value) (key : α → Char)
    (hg : ∀ a, ∃ w, g a = .tuple [.char (key a), w]) (t : List α) (k : Char) :
    searchOf env (fun v => field (env' v) 0 v) (.arr (t.map g)) (.char k) =
      onRs (binarySearchByKey t key k) fun r => .val (found r) env := by
  have hk := keys_map (fun v => field (env' v) 0 v) g key (fun a => by
    obtain ⟨w, hw⟩ := hg a
    exact ⟨env' (g a), by simp only [hw, field_0]⟩) t
  simp only [searchOf, hk]
  rw [ofOption_some, bind_val, ofRs_bind, search_keys]
  apply on_congr
  intro r _
  cases r <;> rfl

theorem searchOf_entry (env : Env) (env' : Value → Env) (t : List (Char × UInt8)) (k : Char) :
    searchOf env (fun v => field (env' v) 0 v) (.arr (t.map entry)) (.char k) =
      onRs (binarySearchByKey t (·.1) k) fun r => .val (found r) env :=
  searchOf_map env env' entry _ (fun _ => ⟨_, rfl⟩) t k
theorem searchOf_entry2 (env : Env) (env' : Value → Env) (t : List (Char × UInt8 × UInt8))
    (k : Char) :
    searchOf env (fun v => field (env' v) 0 v) (.arr (t.map entry2)) (.char k) =
      onRs (binarySearchByKey t (·.1) k) fun r => .val (found r) env :=
  searchOf_map env env' entry2 _ (fun _ => ⟨_, rfl⟩) t k

/-! ## Order of additions -/

theorem arith_error {m : Machine.Target} {b : Nat} {r : Int} {f : Fault}
    (h : Machine.arith m b r = .error f) : f = .panic := by
  unfold Machine.arith at h
  by_cases h1 : 0 ≤ r ∧ r < 2 ^ b
  · rw [if_pos h1] at h
    cases h
  · rw [if_neg h1] at h
    by_cases h2 : m.overflowChecks = true
    · rw [if_pos h2] at h
      cases h
      rfl
    · rw [if_neg h2] at h
      cases h

theorem on_swap {α : Type} (m : Machine.Target) (a b c d : Nat) (k : Nat → Nat → Out α) :
    (onRs (Machine.add m a b) fun x => onRs (Machine.add m c d) fun y => k x y) =
      onRs (Machine.add m c d) fun y => onRs (Machine.add m a b) fun x => k x y := by
  cases hx : Machine.add m a b with
  | ok x => cases Machine.add m c d <;> rfl
  | error f =>
    cases arith_error hx
    cases hy : Machine.add m c d with
    | ok y => rfl
    | error g =>
      cases arith_error hy
      rfl

end Verif.Lang
