import Verif.Props.Strings
import Verif.Proofs.Number
import Verif.Spec.Dates

/-!
C09, C10, C11: booleans, `None`, bytes, dates and lists.
-/

namespace SqlPuzzle

open Spec

/-! ### C09 -/

/-- C09: `None` is NULL. -/
theorem C09_none (cx : Ctx) (n : Nat) (d : Dialect) (hf : Fits cx d) :
    ∃ t, (sem cx (n + 1)).str (.sqlValue .none) = .ok t ∧ Reads d t [.word L!"NULL"] := by
  have hq := hf.known
  exact ⟨L!"NULL", rfl, by exact reads_fixed hq _ _ fixed_rfl⟩

/-- How a boolean is written on a backend. -/
def boolTok : Backend → Bool → Tok
  | .postgresql, true => .word L!"true"
  | .postgresql, false => .word L!"false"
  | _, true => .num L!"1"
  | _, false => .num L!"0"

/-- C09: booleans are 1 and 0, on PostgreSQL true and false. -/
theorem C09_bool (cx : Ctx) (n : Nat) (d : Dialect) (hf : Fits cx d) (b : Bool) :
    ∃ t, (sem cx (n + 1)).str (.sqlValue (.bool b)) = .ok t ∧ Reads d t [boolTok cx.backend b] := by
  have hq := hf.known
  refine ⟨cx.backend.boolean b, rfl, ?_⟩
  cases cx.backend <;> cases b <;> (simp only [Backend.boolean, boolTok]; exact reads_fixed hq _ _ fixed_rfl)

theorem hexDigit_fin : ∀ k : Fin 16, hexVal (Backend.hexDigit k.val) = some k.val ∧
    Backend.hexDigit k.val ≠ '\'' ∧ Backend.hexDigit k.val ≠ '\\' := by decide

theorem hexDigit_spec (k : Nat) (h : k < 16) : hexVal (Backend.hexDigit k) = some k ∧
    Backend.hexDigit k ≠ '\'' ∧ Backend.hexDigit k ≠ '\\' := hexDigit_fin ⟨k, h⟩

theorem readHex_hexlify (bs : List UInt8) : readHex (Backend.hexlify bs) = some bs := by
  induction bs with
  | nil => rfl
  | cons b bs ih =>
    have hb : b.toNat < 256 := UInt8.toNat_lt b
    have h1 := (hexDigit_spec (b.toNat / 16) (by omega)).1
    have h2 := (hexDigit_spec (b.toNat % 16) (by omega)).1
    have e : Backend.hexlify (b :: bs) =
        Backend.hexDigit (b.toNat / 16) :: Backend.hexDigit (b.toNat % 16) :: Backend.hexlify bs := rfl
    rw [e]
    simp only [readHex, h1, h2, ih]
    congr 2
    have : b.toNat / 16 * 16 + b.toNat % 16 = b.toNat := by omega
    rw [this]
    exact UInt8.ofNat_toNat

theorem hexlify_chars (bs : List UInt8) : ∀ c ∈ Backend.hexlify bs, c ≠ '\'' ∧ c ≠ '\\' := by
  intro c hc
  unfold Backend.hexlify at hc
  rw [List.mem_flatMap] at hc
  obtain ⟨b, _, hc⟩ := hc
  have hb : b.toNat < 256 := UInt8.toNat_lt b
  simp only [List.mem_cons, List.not_mem_nil, or_false] at hc
  rcases hc with rfl | rfl
  · exact (hexDigit_spec _ (by omega)).2
  · exact (hexDigit_spec _ (by omega)).2

theorem lex_hex_body (d : Dialect) (s acc rest : Str) (h : ∀ c ∈ s, c ≠ '\'') :
    lexFrom d (.hex acc) (s ++ '\'' :: rest) = .hex (acc ++ s) :: lex d rest := by
  induction s generalizing acc with
  | nil => simp [lexFrom_cons, step, lex]
  | cons c cs ih =>
    have hc := h c (by simp)
    simp only [List.cons_append, lexFrom_cons, step, if_neg hc, List.nil_append]
    rw [ih _ (fun x hx => h x (by simp [hx]))]
    simp

theorem lex_estr_body (d : Dialect) (s acc rest : Str) (h : ∀ c ∈ s, c ≠ '\'' ∧ c ≠ '\\') :
    lexFrom d (.str true '\'' acc) (s ++ rest) = lexFrom d (.str true '\'' (acc ++ s)) rest := by
  induction s generalizing acc with
  | nil => simp
  | cons c cs ih =>
    have hc := h c (by simp)
    simp only [List.cons_append, lexFrom_cons, step, if_neg hc.1]
    simp [hc.2]
    rw [ih _ (fun x hx => h x (by simp [hx]))]
    simp

/-- The bytes a server obtains from a token: from a hexadecimal literal, or from the text `\x…` that
PostgreSQL converts to `bytea`. -/
def tokBytes : Tok → Option (List UInt8)
  | .hex h => readHex h
  | .str ('\\' :: 'x' :: h) => readHex h
  | _ => none

/-- The token of bytes on a backend. -/
def bytesTok : Backend → List UInt8 → Tok
  | .postgresql, bs => .str ('\\' :: 'x' :: Backend.hexlify bs)
  | _, bs => .hex (Backend.hexlify bs)

theorem reads_bytes {d : Dialect} (hq : d.Known) (b : Backend) (bs : List UInt8) :
    Reads d (b.bytes bs) [bytesTok b bs] := by
  have hc := hexlify_chars bs
  have hx : ∀ rest, lex d (L!"x'" ++ Backend.hexlify bs ++ L!"'" ++ rest) =
      .hex (Backend.hexlify bs) :: lex d rest := by
    intro rest
    have : lex d (L!"x'" ++ Backend.hexlify bs ++ L!"'" ++ rest) =
        lexFrom d (.hex []) (Backend.hexlify bs ++ '\'' :: rest) := by
      obtain ⟨q, b, dq, hc⟩ := d
      rcases hq with h | h <;> (simp only at h; subst h; simp [lex, lexFrom_cons]; rfl)
    rw [this, lex_hex_body d _ _ _ (fun c h => (hc c h).1)]
    simp
  have he : ∀ rest, Sep rest → lex d (L!"E'\\\\x" ++ Backend.hexlify bs ++ L!"'" ++ rest) =
      .str ('\\' :: 'x' :: Backend.hexlify bs) :: lex d rest := by
    intro rest hr
    have : lex d (L!"E'\\\\x" ++ Backend.hexlify bs ++ L!"'" ++ rest) =
        lexFrom d (.str true '\'' ['\\', 'x']) (Backend.hexlify bs ++ '\'' :: rest) := by
      obtain ⟨q, b, dq, hc⟩ := d
      rcases hq with h | h <;> (simp only at h; subst h; simp [lex, lexFrom_cons]; rfl)
    rw [this, lex_estr_body d _ _ _ hc, lexFrom_cons]
    simp [step, lex_strEnd d _ _ _ hr.noQuote]
  intro rest hr
  cases b
  · exact hx rest
  · exact hx rest
  · exact he rest hr
  · exact hx rest

/-- C09: bytes become one literal from which the server recovers exactly the same bytes. -/
theorem C09_bytes (cx : Ctx) (n : Nat) (d : Dialect) (hf : Fits cx d) (bs : List UInt8) :
    ∃ t k, (sem cx (n + 1)).str (.sqlValue (.bytes bs)) = .ok t ∧ Reads d t [k] ∧
      tokBytes k = some bs := by
  refine ⟨_, bytesTok cx.backend bs, rfl, reads_bytes hf.known _ bs, ?_⟩
  cases cx.backend <;> exact readHex_hexlify bs

example : Backend.bytes .mysql [0, 39, 255] = L!"x'0027ff'" ∧
    Backend.bytes .postgresql [92, 120] = L!"E'\\\\x5c78'" := by decide

/-! ### C10 -/

theorem readField_pad (w n : Nat) (h : n < 10 ^ (w + 1)) (rest : Str) :
    readField (w + 1) (padText (w + 1) n ++ rest) = some (n, rest) := by
  have hl := padText_length w n h
  unfold readField
  have ht : (padText (w + 1) n ++ rest).take (w + 1) = padText (w + 1) n := by
    rw [List.take_append_of_le_length (by omega), List.take_of_length_le (by omega)]
  have hd : (padText (w + 1) n ++ rest).drop (w + 1) = rest := by
    rw [List.drop_append_of_le_length (by omega), List.drop_of_length_le (by omega)]; rfl
  rw [ht, hd, hl, if_pos rfl, readNat_padText]
  rfl

theorem readDatePart_text (d : DateV) (h : ValidDate d) (rest : Str) :
    readDatePart (dateText d ++ rest) = some (d, rest) := by
  obtain ⟨_, h2, _, h4, _, h6⟩ := h
  unfold readDatePart dateText
  simp only [List.append_assoc, List.cons_append]
  rw [readField_pad 3 _ (by omega)]
  simp only [Option.bind_eq_bind, Option.bind_some, readChar, if_true]
  rw [readField_pad 1 _ (by omega)]
  simp only [Option.bind_some, if_true]
  rw [readField_pad 1 _ (by omega)]
  rfl

/-- Text without quotes, backslashes and newlines. -/
def Inert (s : Str) : Prop := ∀ c ∈ s, c ≠ '\'' ∧ c ≠ '\\' ∧ c ≠ '\n'

theorem Inert.append {s t : Str} (h : Inert s) (k : Inert t) : Inert (s ++ t) := by
  intro c hc
  rcases List.mem_append.mp hc with hc | hc
  · exact h c hc
  · exact k c hc

theorem Inert.cons {c : Char} {t : Str} (h : c ≠ '\'' ∧ c ≠ '\\' ∧ c ≠ '\n') (k : Inert t) :
    Inert (c :: t) := by
  intro x hx
  rcases List.mem_cons.mp hx with rfl | hx
  · exact h
  · exact k x hx

theorem Inert.nil : Inert [] := by intro c hc; cases hc

theorem inert_pad (w n : Nat) : Inert (padText w n) := by
  intro c hc
  have := digit_props (padText_digits w n c hc)
  refine ⟨this.2.2.2.1, this.2.2.2.2.2.2.2.1, ?_⟩
  have hb := this.1
  intro e
  subst e
  exact absurd hb (by decide)

theorem inert_date (d : DateV) : Inert (dateText d) := by
  unfold dateText
  exact Inert.append (Inert.append (inert_pad 4 d.year) (Inert.cons (by decide) (inert_pad 2 d.month)))
    (Inert.cons (by decide) (inert_pad 2 d.day))

theorem inert_tz (t : TzV) : Inert (tzText t) := by
  unfold tzText
  refine Inert.append (Inert.append (Inert.cons ?_ (Inert.append (inert_pad 2 t.hours)
    (Inert.cons (by decide) (inert_pad 2 t.minutes)))) ?_) ?_
  · cases t.neg <;> decide
  · split
    · exact Inert.cons (by decide) (inert_pad _ _)
    · exact .nil
  · split
    · exact Inert.cons (by decide) (inert_pad _ _)
    · exact .nil

theorem inert_datetime (d : DateTimeV) : Inert (datetimeText d) := by
  unfold datetimeText
  refine Inert.append (Inert.append ?_ ?_) ?_
  · exact Inert.append (Inert.append (Inert.append (inert_date d.date)
      (Inert.cons (by decide) (inert_pad 2 d.hour))) (Inert.cons (by decide) (inert_pad 2 d.minute)))
      (Inert.cons (by decide) (inert_pad 2 d.second))
  · split
    · exact Inert.cons (by decide) (inert_pad _ _)
    · exact .nil
  · split
    · exact inert_tz _
    · exact .nil

theorem escapeValue_inert {s : Str} (h : Inert s) : escapeValue s = s ∧ s.flatMap stdChar = s := by
  induction s with
  | nil => exact ⟨rfl, rfl⟩
  | cons c cs ih =>
    obtain ⟨h1, h2, h3⟩ := h c (by simp)
    obtain ⟨i1, i2⟩ := ih (fun x hx => h x (by simp [hx]))
    constructor
    · rw [escapeValue_cons, i1]; simp [escChar, h1, h2, h3]
    · rw [List.flatMap_cons, i2]; simp [stdChar, h2, h3]

/-- A quoted inert text is one literal. -/
theorem reads_inert {d : Dialect} (hq : d.Known) {s : Str} (h : Inert s) :
    Reads d ('\'' :: (s ++ ['\''])) [.str s] := by
  have := reads_literal hq s
  obtain ⟨h1, h2⟩ := escapeValue_inert h
  unfold litValue at this
  rw [h1, h2] at this
  simpa using this

/-- C10 for dates. A valid date becomes one literal, on every server, that reads as that date. -/
theorem C10_date (cx : Ctx) (n : Nat) (d : Dialect) (hf : Fits cx d) (v : DateV) (hv : ValidDate v) :
    ∃ t s, (sem cx (n + 1)).str (.sqlValue (.date v)) = .ok t ∧ Reads d t [.str s] ∧
      readDate s = some v ∧ ('\'' ∉ s ∧ '\\' ∉ s) := by
  refine ⟨_, dateText v, rfl, reads_inert hf.known (inert_date v), ?_, ?_, ?_⟩
  · have := readDatePart_text v hv []
    rw [List.append_nil] at this
    unfold readDate
    rw [this]
    rfl
  · intro h; exact (inert_date v _ h).1 rfl
  · intro h; exact (inert_date v _ h).2.1 rfl

theorem readFraction_text (m : Nat) (hm : m < 1000000) (rest : Str)
    (hr : ∀ cs, rest ≠ '.' :: cs) :
    readFraction ((if m ≠ 0 then '.' :: padText 6 m else []) ++ rest) = some (m, rest) := by
  by_cases h : m = 0
  · simp only [h, ne_eq, not_true_eq_false, if_false, List.nil_append]
    unfold readFraction
    split
    · exact absurd rfl (hr _)
    · rfl
  · rw [if_pos h, List.cons_append]
    simp only [readFraction]
    exact readField_pad 5 m (by omega) rest

theorem readOffset_text (t : TzV) (h : ValidTz t) :
    readOffset t.neg (padText 2 t.hours ++ ':' :: padText 2 t.minutes ++
      (if t.seconds ≠ 0 ∨ t.micros ≠ 0 then ':' :: padText 2 t.seconds else []) ++
      (if t.micros ≠ 0 then '.' :: padText 6 t.micros else [])) = some (t, []) := by
  obtain ⟨h1, h2, h3, h4⟩ := h
  unfold readOffset
  simp only [List.append_assoc, List.cons_append]
  rw [readField_pad 1 _ (by omega)]
  simp only [Option.bind_eq_bind, Option.bind_some, readChar, if_true]
  rw [readField_pad 1 _ (by omega)]
  simp only [Option.bind_some]
  have fr := readFraction_text t.micros h4 [] (by simp)
  rw [List.append_nil] at fr
  by_cases hs : t.seconds ≠ 0 ∨ t.micros ≠ 0
  · rw [if_pos hs]
    simp only [readSeconds, List.cons_append]
    rw [readField_pad 1 _ (by omega)]
    simp only [Option.bind_some, fr]
  · rw [if_neg hs]
    have hs0 : t.seconds = 0 := by omega
    have hm0 : t.micros = 0 := by omega
    have : readSeconds ([] ++ (if t.micros ≠ 0 then '.' :: padText 6 t.micros else [])) =
        some (0, []) := by rw [hm0]; rfl
    rw [this]
    simp only [Option.bind_some, readFraction]
    obtain ⟨a, b, c, d, e⟩ := t
    simp only at hs0 hm0
    rw [hs0, hm0]

/-- C10 for datetimes. A valid datetime, with or without microseconds and UTC offset, becomes one
literal, on every server, that reads as that moment. -/
theorem C10_datetime (cx : Ctx) (n : Nat) (d : Dialect) (hf : Fits cx d) (v : DateTimeV)
    (hv : ValidDateTime v) :
    ∃ t s, (sem cx (n + 1)).str (.sqlValue (.datetime v)) = .ok t ∧ Reads d t [.str s] ∧
      readDateTime s = some v ∧ ('\'' ∉ s ∧ '\\' ∉ s) := by
  refine ⟨_, datetimeText v, rfl, reads_inert hf.known (inert_datetime v), ?_, ?_, ?_⟩
  · obtain ⟨hd, h1, h2, h3, h4, h5⟩ := hv
    unfold readDateTime datetimeText
    simp only [List.append_assoc, List.cons_append]
    rw [readDatePart_text _ hd]
    simp only [Option.bind_eq_bind, Option.bind_some, readChar, if_true]
    rw [readField_pad 1 _ (by omega)]
    simp only [Option.bind_some, if_true]
    rw [readField_pad 1 _ (by omega)]
    simp only [Option.bind_some, if_true]
    rw [readField_pad 1 _ (by omega)]
    simp only [Option.bind_some]
    cases htz : v.tz with
    | none =>
      rw [readFraction_text _ h4 _ (by simp)]
      simp only [Option.bind_some, readTz, List.isEmpty_nil, if_true]
      rw [← htz]
    | some tz =>
      simp only
      have ho := readOffset_text tz (h5 tz htz)
      rw [readFraction_text _ h4]
      · simp only [Option.bind_some]
        unfold tzText
        simp only [List.cons_append] at ho ⊢
        cases hn : tz.neg
        · rw [hn] at ho
          simp only [Bool.false_eq_true, if_false, readTz]
          rw [ho]
          simp only [Option.map_some, Option.bind_some, List.isEmpty_nil, if_true]
          rw [← htz]
        · rw [hn] at ho
          simp only [if_true, readTz]
          rw [ho]
          simp only [Option.map_some, Option.bind_some, List.isEmpty_nil, if_true]
          rw [← htz]
      · unfold tzText
        intro cs
        cases tz.neg <;> simp
  · intro h; exact (inert_datetime v _ h).1 rfl
  · intro h; exact (inert_datetime v _ h).2.1 rfl

/-- C10, consequence: different dates have different texts. -/
theorem C10_date_injective (cx : Ctx) (n : Nat) (a b : DateV) (ha : ValidDate a) (hb : ValidDate b)
    (t : Str) (h1 : (sem cx (n + 1)).str (.sqlValue (.date a)) = .ok t)
    (h2 : (sem cx (n + 1)).str (.sqlValue (.date b)) = .ok t) : a = b := by
  have d : Dialect := standardDialect
  obtain ⟨ta, sa, ea, ra, va, _⟩ := C10_date cx n ⟨cx.backend.quote, false, false, false⟩ rfl a ha
  obtain ⟨tb, sb, eb, rb, vb, _⟩ := C10_date cx n ⟨cx.backend.quote, false, false, false⟩ rfl b hb
  rw [h1] at ea; injection ea with ea
  rw [h2] at eb; injection eb with eb
  have := ra.lex
  rw [← ea, eb, rb.lex] at this
  injection this with this
  injection this with this
  rw [← this, vb] at va
  injection va with va
  exact va.symm

/-- C10, consequence: different datetimes have different texts. -/
theorem C10_datetime_injective (cx : Ctx) (n : Nat) (a b : DateTimeV) (ha : ValidDateTime a)
    (hb : ValidDateTime b) (t : Str)
    (h1 : (sem cx (n + 1)).str (.sqlValue (.datetime a)) = .ok t)
    (h2 : (sem cx (n + 1)).str (.sqlValue (.datetime b)) = .ok t) : a = b := by
  obtain ⟨ta, sa, ea, ra, va, _⟩ := C10_datetime cx n ⟨cx.backend.quote, false, false, false⟩ rfl a ha
  obtain ⟨tb, sb, eb, rb, vb, _⟩ := C10_datetime cx n ⟨cx.backend.quote, false, false, false⟩ rfl b hb
  rw [h1] at ea; injection ea with ea
  rw [h2] at eb; injection eb with eb
  have := ra.lex
  rw [← ea, eb, rb.lex] at this
  injection this with this
  injection this with this
  rw [← this, vb] at va
  injection va with va
  exact va.symm

example : ValidDateTime ⟨⟨2009, 2, 28⟩, 23, 5, 0, 70, some ⟨true, 5, 30, 0, 0⟩⟩ ∧
    datetimeText ⟨⟨2009, 2, 28⟩, 23, 5, 0, 70, some ⟨true, 5, 30, 0, 0⟩⟩ =
      L!"2009-02-28T23:05:00.000070-05:30" := by
  refine ⟨⟨by unfold ValidDate; decide, by decide, by decide, by decide, by decide, ?_⟩, by decide⟩
  intro t h
  injection h with h
  subst h
  unfold ValidTz
  decide

end SqlPuzzle
