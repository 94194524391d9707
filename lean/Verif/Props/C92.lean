import Verif.Model.ShipLog
import Verif.Spec.ShipLog
import Verif.Lemmas.Struct
/-
C92: what the reader of the ship's logs finds in a log.
-/
namespace NR
open Spec

/-! ### Searching and splitting -/

/-- No occurrence of the marker starts in the first `n` bytes. -/
def NoStart (sep l : List Byte) (n : Nat) : Prop := ∀ k < n, ¬ sep <+: l.drop k

theorem noStart_cons {sep l : List Byte} {a : Byte} {n : Nat} :
    NoStart sep (a :: l) (n + 1) ↔ ¬ sep <+: a :: l ∧ NoStart sep l n := by
  constructor
  · intro h
    exact ⟨h 0 (by omega), fun k hk => h (k + 1) (by omega)⟩
  · rintro ⟨h0, h⟩ k hk
    cases k with
    | zero => exact h0
    | succ k => exact h k (by omega)

theorem noStart_append {sep a b c : List Byte} (ha : NoStart sep (a ++ (b ++ c)) a.length)
    (hb : NoStart sep (b ++ c) b.length) : NoStart sep ((a ++ b) ++ c) (a ++ b).length := by
  rw [List.append_assoc]
  induction a with
  | nil => exact hb
  | cons x a ih =>
    rw [List.cons_append, List.length_cons, noStart_cons] at ha
    rw [List.cons_append, List.cons_append, List.length_cons, noStart_cons]
    exact ⟨ha.1, ih ha.2⟩

theorem noStart_first {s a : List Byte} {c : Byte} (h : c ∉ a) (r : List Byte) : NoStart (c :: s) (a ++ r) a.length := by
  induction a with
  | nil => intro k hk; simp at hk
  | cons x a ih =>
    rw [List.cons_append, List.length_cons, noStart_cons]
    refine ⟨fun hp => ?_, ih fun hc => h (List.mem_cons_of_mem _ hc)⟩
    rw [List.cons_prefix_cons] at hp
    exact h (hp.1 ▸ List.mem_cons_self)

theorem noStart_free {sep p : List Byte} (h : ¬ sep <:+: p) : NoStart sep p p.length := by
  intro k _ hp
  exact h (hp.isInfix.trans (List.drop_suffix k p).isInfix)

theorem noStart_border {s p : List Byte} {c : Byte} (hc : c ∉ s) (h : ¬ c :: s <:+: p) (r : List Byte) :
    NoStart (c :: s) (p ++ (c :: s ++ r)) p.length := by
  intro k hk hp
  obtain ⟨t, ht⟩ := hp
  rw [List.drop_append_of_le_length (by omega)] at ht
  by_cases hl : (c :: s).length ≤ (p.drop k).length
  · apply h
    have : c :: s <+: p.drop k := List.prefix_of_prefix_length_le ⟨t, ht⟩ (List.prefix_append _ _) hl
    exact this.isInfix.trans (List.drop_suffix k p).isInfix
  · have hl' : (p.drop k).length < (c :: s).length := by omega
    have h1 : (c :: s ++ t)[(p.drop k).length]? = some c := by
      rw [ht, List.getElem?_append_right (Nat.le_refl _), Nat.sub_self]; rfl
    rw [List.getElem?_append_left hl'] at h1
    have hpos : 0 < (p.drop k).length := by rw [List.length_drop]; omega
    obtain ⟨m, hm⟩ : ∃ m, (p.drop k).length = m + 1 := ⟨(p.drop k).length - 1, by omega⟩
    rw [hm, List.getElem?_cons_succ] at h1
    exact hc (List.mem_of_getElem? h1)

theorem find_skip {sep : List Byte} (pre rest : List Byte) (h : NoStart sep (pre ++ rest) pre.length) :
    bytesFind sep (pre ++ rest) = (bytesFind sep rest).map (· + pre.length) := by
  induction pre with
  | nil => simp
  | cons x pre ih =>
    rw [List.cons_append, List.length_cons, noStart_cons] at h
    rw [List.cons_append, bytesFind, if_neg (by rw [List.isPrefixOf_iff_prefix]; exact h.1), ih h.2, Option.map_map]
    congr 1

theorem find_here {sep : List Byte} (hs : sep ≠ []) (r : List Byte) : bytesFind sep (sep ++ r) = some 0 := by
  obtain ⟨c, s, rfl⟩ := List.exists_cons_of_ne_nil hs
  rw [List.cons_append, bytesFind, if_pos]
  rw [List.isPrefixOf_iff_prefix, ← List.cons_append]
  exact List.prefix_append _ _

theorem find_none {sep l : List Byte} (hs : sep ≠ []) (h : NoStart sep l l.length) : bytesFind sep l = none := by
  have := find_skip (sep := sep) l [] (by simpa using h)
  rw [List.append_nil] at this
  rw [this, bytesFind, if_neg (by simpa using hs)]; rfl

theorem findInt_at {sep : List Byte} (hs : sep ≠ []) (pre r : List Byte) (h : NoStart sep (pre ++ (sep ++ r)) pre.length) :
    bytesFindInt sep (pre ++ (sep ++ r)) = (pre.length : Nat) := by
  unfold bytesFindInt
  rw [find_skip _ _ h, find_here hs, Option.map_some, Nat.zero_add]

theorem split_skip {sep : List Byte} (pre rest acc : List Byte) (h : NoStart sep (pre ++ rest) pre.length) :
    bytesSplitGo sep 0 acc (pre ++ rest) = bytesSplitGo sep 0 (pre.reverse ++ acc) rest := by
  induction pre generalizing acc with
  | nil => rfl
  | cons x pre ih =>
    rw [List.cons_append, List.length_cons, noStart_cons] at h
    rw [List.cons_append, bytesSplitGo, if_neg (by rw [List.isPrefixOf_iff_prefix]; exact h.1), ih _ h.2]
    simp

theorem split_over {sep : List Byte} (s r acc : List Byte) :
    bytesSplitGo sep s.length acc (s ++ r) = bytesSplitGo sep 0 acc r := by
  induction s with
  | nil => rfl
  | cons x s ih => rw [List.cons_append, List.length_cons, bytesSplitGo, ih]

theorem split_here {sep : List Byte} (hs : sep ≠ []) (r acc : List Byte) :
    bytesSplitGo sep 0 acc (sep ++ r) = acc.reverse :: bytesSplitGo sep 0 [] r := by
  obtain ⟨c, s, rfl⟩ := List.exists_cons_of_ne_nil hs
  rw [List.cons_append, bytesSplitGo, if_pos]
  · rw [List.length_cons, Nat.add_sub_cancel, split_over]
  · rw [List.isPrefixOf_iff_prefix, ← List.cons_append]
    exact List.prefix_append _ _

theorem split_end {sep l : List Byte} (acc : List Byte) (h : NoStart sep l l.length) :
    bytesSplitGo sep 0 acc l = [acc.reverse ++ l] := by
  have := split_skip (sep := sep) l [] acc (by simpa using h)
  rw [List.append_nil] at this
  rw [this, bytesSplitGo]
  simp

theorem sliceInt_mid (a m r : List Byte) : sliceInt (a ++ (m ++ r)) (a.length : Nat) ((a.length + m.length : Nat) : Int) = m := by
  unfold sliceInt pySlice
  simp only
  rw [if_neg (by omega), if_neg (by omega), Int.toNat_natCast, Int.toNat_natCast]
  rw [← List.append_assoc, List.take_left' (by simp), List.drop_left' rfl]

/-! ### Entries -/

theorem ascii_eq : ascii = text := rfl

/-- What is between the start marker of an acquisition and the next one, or the end. -/
def LogEntry.body (e : LogEntry) : List Byte :=
  e.num ++ text "time: " ++ e.time ++ text "\r\n" ++ e.between ++ text "data size: " ++ e.size ++
    text "data success: " ++ e.flag :: text "\r\n" ++ e.payload

theorem written_eq (e : LogEntry) : e.written = text "Aquisition " ++ LogEntry.body e := by
  simp [LogEntry.written, LogEntry.header, LogEntry.body]

theorem plain_not {l : List Byte} (h : Plain l) {c : Byte} (hc : c ∈ text "Adt\r") : c ∉ l := fun hm => h c hm hc

theorem text_A : text "Aquisition " = 0x41 :: text "quisition " := rfl
theorem text_time : text "time: " = 0x74 :: text "ime: " := rfl
theorem text_nl : text "\r\n" = 0x0D :: [0x0A] := rfl
theorem text_size : text "data size: " = 0x64 :: text "ata size: " := rfl
theorem text_succ : text "data success: " = 0x64 :: text "ata success: " := rfl
theorem text_succ' : text "data success" = 0x64 :: text "ata success" := rfl

/-- The texts of an entry are plain. -/
structure PlainTexts (e : LogEntry) : Prop where
  num : Plain e.num
  time : Plain e.time
  between : Plain e.between
  size : Plain e.size
  flag : Plain [e.flag]

/-- The part before the data size has no `d`. -/
theorem noD_front (e : LogEntry) (h : PlainTexts e) :
    (0x64 : Byte) ∉ e.num ++ text "time: " ++ e.time ++ text "\r\n" ++ e.between := by
  have hd : (0x64 : Byte) ∈ text "Adt\r" := by decide
  simp only [List.mem_append, not_or]
  exact ⟨⟨⟨⟨plain_not h.num hd, by decide⟩, plain_not h.time hd⟩, by decide⟩, plain_not h.between hd⟩

/-- No success marker starts before the size has ended. -/
theorem noStart_succ (e : LogEntry) (h : PlainTexts e) {s : List Byte} (hs : text "data su" <+: 0x64 :: s) (r : List Byte) :
    NoStart (0x64 :: s) ((e.num ++ text "time: " ++ e.time ++ text "\r\n" ++ e.between ++ text "data size: " ++ e.size) ++ r)
      (e.num ++ text "time: " ++ e.time ++ text "\r\n" ++ e.between ++ text "data size: " ++ e.size).length := by
  have hd : (0x64 : Byte) ∈ text "Adt\r" := by decide
  refine noStart_append ?_ (noStart_first (plain_not h.size hd) _)
  refine noStart_append (noStart_first (noD_front e h) _) ?_
  rw [text_size, List.cons_append, List.length_cons, noStart_cons]
  refine ⟨fun hp => ?_, noStart_first (by decide) _⟩
  have h1 : text "data su" <+: 0x64 :: (text "ata size: " ++ (e.size ++ r)) := hs.trans hp
  have h2 : text "data siz" <+: 0x64 :: (text "ata size: " ++ (e.size ++ r)) :=
    (show text "data siz" <+: 0x64 :: text "ata size: " by decide).trans (List.prefix_append (0x64 :: text "ata size: ") _)
  have h3 := List.prefix_of_prefix_length_le h1 h2 (by decide)
  revert h3
  decide

/-- The loop body on an entry. `rest` is what follows the success marker. -/
theorem breakOne_entry {τ : Type} (P : LogParsers τ) (e : LogEntry) (h : PlainTexts e) (rest piece : List Byte)
    (more : List (List Byte)) (hsplit : bytesSplitGo (text "data success: ") 0 [] rest = piece :: more) :
    breakOne P (e.num ++ text "time: " ++ e.time ++ text "\r\n" ++ e.between ++ text "data size: " ++ e.size ++
      text "data success: " ++ rest) = (do
        let rTime ← orValueError (P.time (text " " ++ e.time))
        let size ← orValueError (P.int e.size)
        let success ← orValueError (P.int (piece.take 1))
        .ok (some ⟨rTime, size, success, (piece.drop 3).take 123⟩)) := by
  have hd : (0x64 : Byte) ∈ text "Adt\r" := by decide
  have ht : (0x74 : Byte) ∈ text "Adt\r" := by decide
  have hr : (0x0D : Byte) ∈ text "Adt\r" := by decide
  generalize hb : e.num ++ text "time: " ++ e.time ++ text "\r\n" ++ e.between ++ text "data size: " ++ e.size ++
      text "data success: " ++ rest = buffer
  have f1 : bytesFindInt (text "time: ") buffer = (e.num.length : Nat) := by
    rw [← hb]
    simp only [List.append_assoc]
    exact findInt_at (by decide) _ _ (by rw [text_time]; exact noStart_first (plain_not h.num ht) _)
  have f2 : bytesFindInt (text "\r\n") buffer = ((e.num ++ text "time: " ++ e.time).length : Nat) := by
    rw [← hb]
    have := findInt_at (sep := text "\r\n") (by decide) (e.num ++ text "time: " ++ e.time)
      (e.between ++ text "data size: " ++ e.size ++ text "data success: " ++ rest) (by
        rw [text_nl]
        apply noStart_first
        simp only [List.mem_append, not_or]
        exact ⟨⟨plain_not h.num hr, by decide⟩, plain_not h.time hr⟩)
    simpa only [List.append_assoc] using this
  have f3 : bytesFindInt (text "data size: ") buffer =
      ((e.num ++ text "time: " ++ e.time ++ text "\r\n" ++ e.between).length : Nat) := by
    rw [← hb]
    have := findInt_at (sep := text "data size: ") (by decide) (e.num ++ text "time: " ++ e.time ++ text "\r\n" ++ e.between)
      (e.size ++ text "data success: " ++ rest) (by rw [text_size]; exact noStart_first (noD_front e h) _)
    simpa only [List.append_assoc] using this
  have f4 : bytesFindInt (text "data success") buffer = ((e.num ++ text "time: " ++ e.time ++ text "\r\n" ++ e.between ++
      text "data size: " ++ e.size).length : Nat) := by
    rw [← hb]
    have := findInt_at (sep := text "data success") (by decide)
      (e.num ++ text "time: " ++ e.time ++ text "\r\n" ++ e.between ++ text "data size: " ++ e.size)
      (text ": " ++ rest) (by rw [text_succ']; exact noStart_succ e h (by decide) _)
    have hs : text "data success: " = text "data success" ++ text ": " := rfl
    rw [hs]
    simpa only [List.append_assoc] using this
  have f5 : bytesSplit (text "data success: ") buffer =
      (e.num ++ text "time: " ++ e.time ++ text "\r\n" ++ e.between ++ text "data size: " ++ e.size) :: piece :: more := by
    rw [← hb, bytesSplit, List.append_assoc, split_skip, split_here (by decide), hsplit]
    · simp
    · rw [text_succ]; exact noStart_succ e h (by decide) _
  have s1 : sliceInt buffer (((e.num.length : Nat) : Int) + 5) ((e.num ++ text "time: " ++ e.time).length : Nat) =
      text " " ++ e.time := by
    have := sliceInt_mid (e.num ++ text "time:") (text " " ++ e.time)
      (text "\r\n" ++ e.between ++ text "data size: " ++ e.size ++ text "data success: " ++ rest)
    have e1 : (e.num ++ text "time:") ++ ((text " " ++ e.time) ++
        (text "\r\n" ++ e.between ++ text "data size: " ++ e.size ++ text "data success: " ++ rest)) = buffer := by
      rw [← hb, show text "time: " = text "time:" ++ text " " from rfl]
      simp only [List.append_assoc]
    rw [e1] at this
    refine Eq.trans ?_ this
    congr 1
    · simp only [List.length_append]; rw [show (text "time:").length = 5 from rfl]; push_cast; rfl
    · simp only [List.length_append]
      rw [show (text "time:").length = 5 from rfl, show (text "time: ").length = 6 from rfl, show (text " ").length = 1 from rfl]
      push_cast; omega
  have s2 : sliceInt buffer (((e.num ++ text "time: " ++ e.time ++ text "\r\n" ++ e.between).length : Nat) + 11)
      ((e.num ++ text "time: " ++ e.time ++ text "\r\n" ++ e.between ++ text "data size: " ++ e.size).length : Nat) = e.size := by
    have := sliceInt_mid (e.num ++ text "time: " ++ e.time ++ text "\r\n" ++ e.between ++ text "data size: ") e.size
      (text "data success: " ++ rest)
    have e1 : (e.num ++ text "time: " ++ e.time ++ text "\r\n" ++ e.between ++ text "data size: ") ++
        (e.size ++ (text "data success: " ++ rest)) = buffer := by
      rw [← hb]; simp only [List.append_assoc]
    rw [e1] at this
    refine Eq.trans ?_ this
    congr 1
    · simp only [List.length_append]; rw [show (text "data size: ").length = 11 from rfl]; push_cast; omega
    · simp only [List.length_append]
  unfold breakOne
  rw [ascii_eq, f1, f2, f3, f4, f5, if_pos (by omega)]
  simp only [List.getElem?_cons_succ, List.getElem?_cons_zero, s1, s2, List.take_take]
  rfl

/-- What is read from a clean acquisition. -/
theorem breakOne_clean {τ : Type} (P : LogParsers τ) (e : LogEntry) (h : e.Clean) :
    breakOne P (LogEntry.body e) = (do
        let rTime ← orValueError (P.time (text " " ++ e.time))
        let size ← orValueError (P.int e.size)
        let success ← orValueError (P.int [e.flag])
        .ok (some ⟨rTime, size, success, e.payload.take 123⟩)) := by
  have hd : (0x64 : Byte) ∈ text "Adt\r" := by decide
  have hsplit : bytesSplitGo (text "data success: ") 0 [] (e.flag :: text "\r\n" ++ e.payload) =
      [e.flag :: text "\r\n" ++ e.payload] := by
    rw [split_end]
    · simp
    · have := noStart_append (sep := text "data success: ") (a := e.flag :: text "\r\n") (b := e.payload) (c := [])
        (by
          rw [text_succ]
          apply noStart_first
          rw [List.mem_cons, not_or]
          exact ⟨fun hc => h.flag e.flag (by simp) (hc ▸ hd), by decide⟩)
        (by simpa using noStart_free h.noData)
      simpa using this
  have := breakOne_entry P e ⟨h.num, h.time, h.between, h.size, h.flag⟩ _ _ _ hsplit
  rw [show LogEntry.body e = e.num ++ text "time: " ++ e.time ++ text "\r\n" ++ e.between ++ text "data size: " ++ e.size ++
      text "data success: " ++ (e.flag :: text "\r\n" ++ e.payload) by simp [LogEntry.body], this]
  rfl

/-- The start marker occurs in the body of a clean acquisition neither alone nor before another one. -/
theorem noStart_body (e : LogEntry) (h : e.Clean) (r : List Byte) (hr : r = [] ∨ ∃ q, r = text "Aquisition " ++ q) :
    NoStart (text "Aquisition ") (LogEntry.body e ++ r) (LogEntry.body e).length := by
  have hA : (0x41 : Byte) ∈ text "Adt\r" := by decide
  have hb : LogEntry.body e = (e.num ++ text "time: " ++ e.time ++ text "\r\n" ++ e.between ++ text "data size: " ++ e.size ++
      text "data success: " ++ e.flag :: text "\r\n") ++ e.payload := by simp [LogEntry.body]
  rw [hb]
  refine noStart_append ?_ ?_
  · rw [text_A]
    apply noStart_first
    simp only [List.mem_append, List.mem_cons, not_or]
    exact ⟨⟨⟨⟨⟨⟨⟨⟨plain_not h.num hA, by decide⟩, plain_not h.time hA⟩, by decide⟩, plain_not h.between hA⟩, by decide⟩,
      plain_not h.size hA⟩, by decide⟩, fun hc => h.flag e.flag (by simp) (hc ▸ hA), by decide⟩
  · rcases hr with rfl | ⟨q, rfl⟩
    · simpa using noStart_free h.noStart
    · rw [text_A]
      exact noStart_border (by decide) h.noStart q

/-- The pieces of a log of clean acquisitions, with any further text that starts with a marker (or none). -/
theorem split_log (pre : List Byte) (hpre : Plain pre) (es : List LogEntry) (hc : ∀ e ∈ es, e.Clean) (r : List Byte)
    (pieces : List (List Byte)) (hr : r = [] ∧ pieces = [] ∨ ∃ q, r = text "Aquisition " ++ q ∧
      bytesSplit (text "Aquisition ") q = pieces) :
    bytesSplit (text "Aquisition ") (pre ++ (es.map LogEntry.written).flatten ++ r) =
      pre :: es.map LogEntry.body ++ pieces := by
  have hA : (0x41 : Byte) ∈ text "Adt\r" := by decide
  have key : ∀ (es : List LogEntry), (∀ e ∈ es, e.Clean) → ∀ acc b : List Byte,
      (∀ t, (t = [] ∨ ∃ q, t = text "Aquisition " ++ q) → NoStart (text "Aquisition ") (b ++ t) b.length) →
      bytesSplitGo (text "Aquisition ") 0 acc (b ++ ((es.map LogEntry.written).flatten ++ r)) =
        (acc.reverse ++ b) :: es.map LogEntry.body ++ pieces := by
    intro es
    induction es with
    | nil =>
      intro _ acc b hb
      rcases hr with ⟨rfl, rfl⟩ | ⟨q, rfl, hq⟩
      · have := hb [] (Or.inl rfl)
        rw [List.append_nil] at this
        simp [split_end _ this]
      · simp only [List.map_nil, List.flatten_nil, List.nil_append]
        rw [split_skip _ _ _ (hb _ (Or.inr ⟨q, rfl⟩)), split_here (by decide), ← bytesSplit, hq]
        simp
    | cons e es ih =>
      intro hc acc b hb
      rw [List.map_cons, List.flatten_cons, written_eq, List.append_assoc, List.append_assoc, split_skip _ _ _ (hb _ (Or.inr ⟨_, rfl⟩)),
        split_here (by decide), ih (fun e' he' => hc e' (List.mem_cons_of_mem _ he')) [] _
          (fun t ht => noStart_body e (hc e List.mem_cons_self) t ht)]
      simp
  have := key es hc [] pre (fun t _ => by rw [text_A]; exact noStart_first (plain_not hpre hA) t)
  rw [bytesSplit, List.append_assoc, this]
  rfl

theorem breakOne_plain {τ : Type} (P : LogParsers τ) {l : List Byte} (h : (0x74 : Byte) ∉ l) : breakOne P l = .ok none := by
  have : bytesFindInt (text "time: ") l = -1 := by
    unfold bytesFindInt
    rw [find_none (by decide)]
    have := noStart_first (s := text "ime: ") h []
    rw [text_time]
    simpa using this
  unfold breakOne
  rw [ascii_eq, this, if_neg (by decide)]

/-- The parsers read the texts of an acquisition. -/
structure Readable {τ : Type} (P : LogParsers τ) (e : LogEntry) (a : Acquisition τ) : Prop where
  time : P.time (text " " ++ e.time) = some a.rTime
  size : P.int e.size = some a.size
  flag : P.int [e.flag] = some a.success
  payload : a.payload = e.payload.take 123

theorem breakOne_readable {τ : Type} (P : LogParsers τ) (e : LogEntry) (h : e.Clean) (a : Acquisition τ) (ha : Readable P e a) :
    breakOne P (LogEntry.body e) = .ok (some a) := by
  rw [breakOne_clean P e h, ha.time, ha.size, ha.flag, ← ha.payload]
  rfl

theorem mapM_readable {τ : Type} (P : LogParsers τ) : ∀ (es : List LogEntry) (as : List (Acquisition τ)), (∀ e ∈ es, e.Clean) →
    List.Forall₂ (Readable P) es as → (es.map LogEntry.body).mapM (breakOne P) = .ok (as.map some) := by
  intro es as hc h
  induction h with
  | nil => rfl
  | cons hr _ ih =>
    rw [List.map_cons, List.mapM_cons, breakOne_readable P _ (hc _ List.mem_cons_self) _ hr,
      ih (fun e' he' => hc e' (List.mem_cons_of_mem _ he'))]
    rfl

theorem breakDown_pieces {τ : Type} (P : LogParsers τ) (pre : List Byte) (hpre : Plain pre) (es : List LogEntry)
    (hc : ∀ e ∈ es, e.Clean) (as : List (Acquisition τ)) (hr : List.Forall₂ (Readable P) es as) (pieces : List (List Byte)) :
    breakDown P (pre :: es.map LogEntry.body ++ pieces) = (do
      let rs ← pieces.mapM (breakOne P)
      .ok (as ++ rs.filterMap id)) := by
  have ht : (0x74 : Byte) ∈ text "Adt\r" := by decide
  unfold breakDown
  rw [List.cons_append, List.mapM_cons, breakOne_plain P (plain_not hpre ht), List.mapM_append, mapM_readable P es as hc hr]
  simp only [bind, Except.bind, pure, Except.pure]
  cases pieces.mapM (breakOne P) with
  | error e => rfl
  | ok rs =>
    simp only [List.filterMap_cons, id_eq, List.filterMap_append, Except.ok.injEq]
    rw [List.filterMap_map]
    congr 1
    exact List.filterMap_some

/-- C92: a log of clean acquisitions is read completely and in order: time, size, success flag and the first 123 received
bytes of each. -/
theorem c92_read {τ : Type} (P : LogParsers τ) (pre : List Byte) (hpre : Plain pre) (es : List LogEntry)
    (hc : ∀ e ∈ es, e.Clean) (as : List (Acquisition τ)) (hr : List.Forall₂ (Readable P) es as) :
    readLog P (pre ++ (es.map LogEntry.written).flatten) = .ok as := by
  have := split_log pre hpre es hc [] [] (Or.inl ⟨rfl, rfl⟩)
  rw [List.append_nil] at this
  unfold readLog
  rw [ascii_eq, this, breakDown_pieces P pre hpre es hc as hr []]
  simp [bind, Except.bind, pure, Except.pure]

/-- C92: one acquisition whose time, size or flag cannot be parsed makes the whole log unreadable. -/
theorem c92_unreadable {τ : Type} (P : LogParsers τ) (pre : List Byte) (hpre : Plain pre) (es : List LogEntry)
    (hc : ∀ e ∈ es, e.Clean) (e : LogEntry) (he : e ∈ es)
    (hb : P.time (text " " ++ e.time) = none ∨ P.int e.size = none ∨ P.int [e.flag] = none) :
    Raises (readLog P (pre ++ (es.map LogEntry.written).flatten)) .valueError := by
  have ht : (0x74 : Byte) ∈ text "Adt\r" := by decide
  have hs := split_log pre hpre es hc [] [] (Or.inl ⟨rfl, rfl⟩)
  rw [List.append_nil, List.append_nil] at hs
  have hone : ∀ e ∈ es, (∃ a, breakOne P (LogEntry.body e) = .ok a) ∨ breakOne P (LogEntry.body e) = .error .valueError := by
    intro e he
    rw [breakOne_clean P e (hc e he)]
    cases P.time (text " " ++ e.time) with
    | none => exact Or.inr rfl
    | some t => cases P.int e.size with
      | none => exact Or.inr rfl
      | some z => cases P.int [e.flag] with
        | none => exact Or.inr rfl
        | some f => exact Or.inl ⟨_, rfl⟩
  have hbad : breakOne P (LogEntry.body e) = .error .valueError := by
    rw [breakOne_clean P e (hc e he)]
    rcases hb with h | h | h
    · rw [h]; rfl
    · rw [h]; cases P.time (text " " ++ e.time) <;> rfl
    · rw [h]; cases P.time (text " " ++ e.time) <;> cases P.int e.size <;> rfl
  have hm : (es.map LogEntry.body).mapM (breakOne P) = .error .valueError := by
    clear hs hc
    induction es with
    | nil => cases he
    | cons x es ih =>
      rw [List.map_cons, List.mapM_cons]
      rcases hone x List.mem_cons_self with ⟨a, ha⟩ | ha
      · rw [ha]
        rcases List.mem_cons.1 he with rfl | he
        · rw [hbad] at ha; cases ha
        · rw [ih he (fun y hy => hone y (List.mem_cons_of_mem _ hy))]; rfl
      · rw [ha]; rfl
  unfold readLog breakDown
  rw [ascii_eq, hs, List.mapM_cons, breakOne_plain P (plain_not hpre ht), hm]
  rfl

/-- C92: received bytes that contain the text `data success: ` are cut there. -/
theorem c92_cut_at_marker {τ : Type} (P : LogParsers τ) (pre : List Byte) (hpre : Plain pre) (es : List LogEntry)
    (hc : ∀ e ∈ es, e.Clean) (as : List (Acquisition τ)) (hr : List.Forall₂ (Readable P) es as)
    (e : LogEntry) (he : e.Clean) (q : List Byte) (hq : ¬ text "Aquisition " <:+: e.payload ++ (text "data success: " ++ q))
    (a : Acquisition τ) (ha : Readable P e a) :
    readLog P (pre ++ (es.map LogEntry.written).flatten ++
      { e with payload := e.payload ++ (text "data success: " ++ q) }.written) = .ok (as ++ [a]) := by
  have hA : (0x41 : Byte) ∈ text "Adt\r" := by decide
  have hd : (0x64 : Byte) ∈ text "Adt\r" := by decide
  have hpl : PlainTexts e := ⟨he.num, he.time, he.between, he.size, he.flag⟩
  have hsp : bytesSplit (text "Aquisition ") (LogEntry.body { e with payload := e.payload ++ (text "data success: " ++ q) }) =
      [LogEntry.body { e with payload := e.payload ++ (text "data success: " ++ q) }] := by
    have hb : LogEntry.body { e with payload := e.payload ++ (text "data success: " ++ q) } =
        (e.num ++ text "time: " ++ e.time ++ text "\r\n" ++ e.between ++ text "data size: " ++ e.size ++
        text "data success: " ++ e.flag :: text "\r\n") ++ (e.payload ++ (text "data success: " ++ q)) := by simp [LogEntry.body]
    rw [bytesSplit, split_end]
    · rfl
    · rw [hb]
      have := noStart_append (sep := text "Aquisition ") (a := e.num ++ text "time: " ++ e.time ++ text "\r\n" ++ e.between ++
        text "data size: " ++ e.size ++ text "data success: " ++ e.flag :: text "\r\n")
        (b := e.payload ++ (text "data success: " ++ q)) (c := []) (by
          rw [text_A]
          apply noStart_first
          simp only [List.mem_append, List.mem_cons, not_or]
          exact ⟨⟨⟨⟨⟨⟨⟨⟨plain_not he.num hA, by decide⟩, plain_not he.time hA⟩, by decide⟩, plain_not he.between hA⟩, by decide⟩,
            plain_not he.size hA⟩, by decide⟩, fun hc => he.flag e.flag (by simp) (hc ▸ hA), by decide⟩)
        (by simpa using noStart_free hq)
      simpa using this
  have hsplit : bytesSplitGo (text "data success: ") 0 [] (e.flag :: text "\r\n" ++ e.payload ++ (text "data success: " ++ q)) =
      (e.flag :: text "\r\n" ++ e.payload) :: bytesSplit (text "data success: ") q := by
    rw [split_skip, split_here (by decide)]
    · simp [bytesSplit]
    · refine noStart_append ?_ ?_
      · rw [text_succ]
        apply noStart_first
        rw [List.mem_cons, not_or]
        exact ⟨fun hc => he.flag e.flag (by simp) (hc ▸ hd), by decide⟩
      · rw [text_succ]
        exact noStart_border (by decide) he.noData q
  have hone : breakOne P (LogEntry.body { e with payload := e.payload ++ (text "data success: " ++ q) }) = .ok (some a) := by
    have := breakOne_entry P e hpl _ _ _ hsplit
    rw [show LogEntry.body { e with payload := e.payload ++ (text "data success: " ++ q) } = e.num ++ text "time: " ++ e.time ++
        text "\r\n" ++ e.between ++ text "data size: " ++ e.size ++
        text "data success: " ++ (e.flag :: text "\r\n" ++ e.payload ++ (text "data success: " ++ q)) by simp [LogEntry.body], this]
    rw [ha.time, ha.size, show (e.flag :: text "\r\n" ++ e.payload).take 1 = [e.flag] from rfl, ha.flag,
      show (e.flag :: text "\r\n" ++ e.payload).drop 3 = e.payload from rfl, ← ha.payload]
    rfl
  have := split_log pre hpre es hc _ _ (Or.inr ⟨_, written_eq { e with payload := e.payload ++ (text "data success: " ++ q) }, hsp⟩)
  unfold readLog
  rw [ascii_eq, this, breakDown_pieces P pre hpre es hc as hr]
  simp only [List.mapM_cons, List.mapM_nil, hone, bind, Except.bind, pure, Except.pure]
  rfl

/-- C92: a log that ends after the time of its last acquisition was written and before the success marker is complete makes
the reader raise an IndexError: none of the acquisitions before it is returned. -/
theorem c92_crash {τ : Type} (P : LogParsers τ) (pre : List Byte) (hpre : Plain pre) (es : List LogEntry)
    (hc : ∀ e ∈ es, e.Clean) (as : List (Acquisition τ)) (hr : List.Forall₂ (Readable P) es as) (e : LogEntry) (he : e.Clean)
    (n : Nat) (h1 : (text "Aquisition " ++ e.num ++ text "time: ").length ≤ n) (h2 : n < e.header.length) :
    Raises (readLog P (pre ++ (es.map LogEntry.written).flatten ++ e.header.take n)) .indexError := by
  have hA : (0x41 : Byte) ∈ text "Adt\r" := by decide
  have hd : (0x64 : Byte) ∈ text "Adt\r" := by decide
  have ht : (0x74 : Byte) ∈ text "Adt\r" := by decide
  have hpl : PlainTexts e := ⟨he.num, he.time, he.between, he.size, he.flag⟩
  -- what is left of the last acquisition
  obtain ⟨m, rfl⟩ : ∃ m, n = (text "Aquisition ").length + m := ⟨n - (text "Aquisition ").length, by simp only [List.length_append] at h1; omega⟩
  have hh : e.header = text "Aquisition " ++ (e.num ++ text "time: " ++ e.time ++ text "\r\n" ++ e.between ++
      text "data size: " ++ e.size ++ text "data success: ") := by simp [LogEntry.header]
  generalize hB : e.num ++ text "time: " ++ e.time ++ text "\r\n" ++ e.between ++ text "data size: " ++ e.size ++
    text "data success: " = B at hh
  have hcut : e.header.take ((text "Aquisition ").length + m) = text "Aquisition " ++ B.take m := by
    rw [hh, List.take_length_add_append]
  have hm : m < B.length := by rw [hh, List.length_append] at h2; omega
  have hm1 : e.num.length + 6 ≤ m := by
    simp only [List.length_append, show (text "time: ").length = 6 from rfl] at h1; omega
  have hAB : (0x41 : Byte) ∉ B := by
    rw [← hB]
    simp only [List.mem_append, not_or]
    exact ⟨⟨⟨⟨⟨⟨⟨plain_not he.num hA, by decide⟩, plain_not he.time hA⟩, by decide⟩, plain_not he.between hA⟩, by decide⟩,
      plain_not he.size hA⟩, by decide⟩
  have hsp : bytesSplit (text "Aquisition ") (B.take m) = [B.take m] := by
    rw [bytesSplit, split_end]
    · rfl
    · have := noStart_first (s := text "quisition ") (a := B.take m) (fun h => hAB (List.mem_of_mem_take h)) []
      rw [List.append_nil] at this
      exact this
  -- the time marker is there
  have hfind : bytesFindInt (text "time: ") (B.take m) = (e.num.length : Nat) := by
    have : B.take m = e.num ++ (text "time: " ++ (e.time ++ text "\r\n" ++ e.between ++ text "data size: " ++ e.size ++
        text "data success: ").take (m - e.num.length - 6)) := by
      rw [← hB]
      simp only [List.append_assoc]
      rw [List.take_append, List.take_of_length_le (by omega), List.take_append,
        List.take_of_length_le (by rw [show (text "time: ").length = 6 from rfl]; omega)]
      rfl
    rw [this]
    exact findInt_at (by decide) _ _ (by rw [text_time]; exact noStart_first (plain_not he.num ht) _)
  -- the success marker is not
  have hno : NoStart (text "data success: ") (B.take m) (B.take m).length := by
    intro k hk hp
    have hlen : (text "data success: ").length = 14 := rfl
    have hpl' : k + 14 ≤ m := by
      have := hp.length_le
      rw [List.length_drop, List.length_take, hlen] at this
      have := Nat.min_le_left m B.length
      omega
    have hpB : text "data success: " <+: B.drop k := by
      refine hp.trans ?_
      rw [List.drop_take]
      exact List.take_prefix _ _
    have hlt : k < (e.num ++ text "time: " ++ e.time ++ text "\r\n" ++ e.between ++ text "data size: " ++ e.size).length := by
      rw [← hB, List.length_append, hlen] at hm; omega
    have := noStart_succ e hpl (s := text "ata success: ") (by decide) (text "data success: ")
    rw [hB] at this
    exact this k hlt hpB
  have hone : breakOne P (B.take m) = .error .indexError := by
    unfold breakOne
    rw [ascii_eq, hfind, if_pos (by omega), bytesSplit, split_end _ hno]
    rfl
  have := split_log pre hpre es hc _ _ (Or.inr ⟨_, hcut, hsp⟩)
  unfold readLog
  rw [ascii_eq, this, breakDown_pieces P pre hpre es hc as hr]
  simp only [List.mapM_cons, hone, bind, Except.bind]

/-- C92: a log that ends between the start marker of its last acquisition and its time marker is read without that
acquisition. -/
theorem c92_cut_early {τ : Type} (P : LogParsers τ) (pre : List Byte) (hpre : Plain pre) (es : List LogEntry)
    (hc : ∀ e ∈ es, e.Clean) (as : List (Acquisition τ)) (hr : List.Forall₂ (Readable P) es as) (rest : List Byte)
    (hA : (0x41 : Byte) ∉ rest) (ht : ¬ text "time: " <:+: rest) :
    readLog P (pre ++ (es.map LogEntry.written).flatten ++ (text "Aquisition " ++ rest)) = .ok as := by
  have hsp : bytesSplit (text "Aquisition ") rest = [rest] := by
    rw [bytesSplit, split_end]
    · rfl
    · have := noStart_first (s := text "quisition ") hA []
      rw [List.append_nil] at this
      exact this
  have hone : breakOne P rest = .ok none := by
    have : bytesFindInt (text "time: ") rest = -1 := by
      unfold bytesFindInt
      rw [find_none (by decide) (noStart_free ht)]
    unfold breakOne
    rw [ascii_eq, this, if_neg (by decide)]
  have := split_log pre hpre es hc _ _ (Or.inr ⟨_, rfl, hsp⟩)
  unfold readLog
  rw [ascii_eq, this, breakDown_pieces P pre hpre es hc as hr]
  simp [List.mapM_cons, hone, bind, Except.bind, pure, Except.pure]

theorem split_ne (sep : List Byte) (skip : Nat) (acc l : List Byte) : bytesSplitGo sep skip acc l ≠ [] := by
  induction l generalizing skip acc with
  | nil => simp [bytesSplitGo]
  | cons b l ih =>
    cases skip with
    | succ k => rw [bytesSplitGo]; exact ih _ _
    | zero =>
      rw [bytesSplitGo]
      split
      · simp
      · exact ih _ _

theorem split_two {sep : List Byte} (hs : sep ≠ []) (acc l : List Byte) (h : sep <:+: l) :
    ∃ x y r, bytesSplitGo sep 0 acc l = x :: y :: r := by
  induction l generalizing acc with
  | nil => exact absurd (List.infix_nil.1 h) hs
  | cons b l ih =>
    rw [bytesSplitGo]
    split
    · obtain ⟨y, r, hy⟩ := List.exists_cons_of_ne_nil (split_ne sep (sep.length - 1) [] l)
      exact ⟨_, y, r, by rw [hy]⟩
    · rename_i hp
      rw [List.isPrefixOf_iff_prefix] at hp
      rcases List.infix_cons_iff.1 h with h | h
      · exact absurd h hp
      · exact ih _ h

/-- C92: in an acquisition without a carriage return and line feed, as in a log whose line ends were converted, everything from the time on but
the last byte is taken for the time; if that cannot be parsed the reader raises a ValueError. -/
theorem c92_line_ends {τ : Type} (P : LogParsers τ) (pre : List Byte) (hpre : Plain pre) (es : List LogEntry)
    (hc : ∀ e ∈ es, e.Clean) (as : List (Acquisition τ)) (hr : List.Forall₂ (Readable P) es as) (num rest : List Byte) (hnum : Plain num)
    (hA : (0x41 : Byte) ∉ rest) (hcr : ¬ text "\r\n" <:+: num ++ (text "time: " ++ rest)) (hd : text "data success: " <:+: rest)
    (ht : P.time (text " " ++ rest.dropLast) = none) :
    Raises (readLog P (pre ++ (es.map LogEntry.written).flatten ++ (text "Aquisition " ++ (num ++ (text "time: " ++ rest))))) .valueError := by
  have hAm : (0x41 : Byte) ∈ text "Adt\r" := by decide
  have htm : (0x74 : Byte) ∈ text "Adt\r" := by decide
  have hA' : (0x41 : Byte) ∉ num ++ (text "time: " ++ rest) := by
    rw [List.mem_append, List.mem_append]
    rintro (h | h | h)
    · exact hnum _ h hAm
    · revert h; decide
    · exact hA h
  have hsp : bytesSplit (text "Aquisition ") (num ++ (text "time: " ++ rest)) = [num ++ (text "time: " ++ rest)] := by
    rw [bytesSplit, split_end]
    · rfl
    · have := noStart_first (s := text "quisition ") hA' []
      rw [List.append_nil] at this
      exact this
  have hne : rest ≠ [] := by
    rintro rfl
    have := List.infix_nil.1 hd
    revert this; decide
  have hone : breakOne P (num ++ (text "time: " ++ rest)) = .error .valueError := by
    have h1 : bytesFindInt (text "time: ") (num ++ (text "time: " ++ rest)) = (num.length : Nat) :=
      findInt_at (by decide) num rest (noStart_first (s := text "ime: ") (fun h => hnum _ h htm) _)
    have h2 : bytesFindInt (text "\r\n") (num ++ (text "time: " ++ rest)) = -1 := by
      unfold bytesFindInt
      rw [find_none (by decide) (noStart_free hcr)]
    have h3 : sliceInt (num ++ (text "time: " ++ rest)) (((num.length : Nat) : Int) + 5) (-1) = text " " ++ rest.dropLast := by
      obtain ⟨init, x, rfl⟩ : ∃ init x, rest = init ++ [x] := ⟨_, _, (List.dropLast_append_getLast hne).symm⟩
      have := sliceInt_mid (num ++ text "time:") (text " " ++ init) [x]
      rw [List.dropLast_concat, ← this]
      have e : num ++ text "time:" ++ (text " " ++ init ++ [x]) = num ++ (text "time: " ++ (init ++ [x])) := by
        simp [text]
      rw [e]
      unfold sliceInt
      simp only
      have hl : (num ++ (text "time: " ++ (init ++ [x]))).length = num.length + 7 + init.length := by simp [text]; omega
      have hl2 : (num ++ text "time:").length = num.length + 5 := by simp [text]
      have hl3 : (text " " ++ init).length = init.length + 1 := by simp [text]
      rw [hl, hl2, hl3]
      congr 1
      rw [if_pos (by omega), if_neg (by omega)]; omega
    obtain ⟨x, y, r, hxy⟩ := split_two (sep := text "data success: ") (by decide) [] (num ++ (text "time: " ++ rest))
      (hd.trans ⟨num ++ text "time: ", [], by simp⟩)
    unfold breakOne
    rw [ascii_eq, h1, if_pos (by omega), bytesSplit, hxy]
    simp only [List.getElem?_cons_succ, List.getElem?_cons_zero, h2, h3, ht, orValueError, bind, Except.bind]
  have := split_log pre hpre es hc _ _ (Or.inr ⟨_, rfl, hsp⟩)
  unfold readLog
  rw [ascii_eq, this, breakDown_pieces P pre hpre es hc as hr]
  simp only [List.mapM_cons, hone, bind, Except.bind]

/-- A log with line feeds only. -/
example : Raises (readLog (⟨fun l => if l.length = 20 then some 0 else none, fun _ => some 1⟩ : LogParsers Nat)
    ([] ++ (([] : List LogEntry).map LogEntry.written).flatten ++
      (text "Aquisition " ++ (text "12 " ++ (text "time: " ++ text "14_02_2022_10_20_30\ndata size: 123 data success: 1\nabc"))))) .valueError := by
  refine c92_line_ends _ [] (by simp [Plain]) [] (by simp) [] .nil _ _ ?_ ?_ ?_ ?_ ?_
  · unfold Plain; decide
  · decide
  · decide +kernel
  · exact ⟨text "14_02_2022_10_20_30\ndata size: 123 ", text "1\nabc", by decide⟩
  · decide

/-- An example: two acquisitions, the parsers count digits. -/
def exLogParsers : LogParsers Nat where
  time l := some l.length
  int l := if l = text "1" then some 1 else some l.length

def exLogEntry (payload : List Byte) : LogEntry :=
  ⟨text "12 ", text "14_02_2022_10_20_30", text "", text "123 ", 0x31, payload⟩

theorem exLogEntry_clean (p : List Byte) (h : p.length < 11) : (exLogEntry p).Clean where
  num := show Plain (text "12 ") by unfold Plain; decide
  time := show Plain (text "14_02_2022_10_20_30") by unfold Plain; decide
  between := show Plain (text "") by unfold Plain; decide
  size := show Plain (text "123 ") by unfold Plain; decide
  flag := show Plain ([0x31]) by unfold Plain; decide
  noStart hi := by
    have := hi.length_le
    rw [show (text "Aquisition ").length = 11 from rfl] at this
    exact absurd h (Nat.not_lt.2 this)
  noData hi := by
    have := hi.length_le
    rw [show (text "data success: ").length = 14 from rfl] at this
    have h' : (exLogEntry p).payload.length < 11 := h
    omega

example : readLog exLogParsers (text "log " ++ ([exLogEntry [254, 1], exLogEntry [254, 2, 3]].map LogEntry.written).flatten) =
    .ok [⟨20, 4, 1, [254, 1]⟩, ⟨20, 4, 1, [254, 2, 3]⟩] := by
  apply c92_read
  · unfold Plain; decide
  · intro e he
    simp only [List.mem_cons, List.not_mem_nil, or_false] at he
    rcases he with rfl | rfl <;> exact exLogEntry_clean _ (by decide)
  · exact .cons ⟨rfl, rfl, rfl, rfl⟩ (.cons ⟨rfl, rfl, rfl, rfl⟩ .nil)

/-- C92: the received bytes are not returned unchanged in general: a marker inside them cuts them short. -/
theorem c92_payload_false : ¬ ∀ (P : LogParsers Nat) (e : LogEntry) (as : List (Acquisition Nat)),
    Plain e.num → Plain e.time → Plain e.between → Plain e.size → Plain [e.flag] → readLog P e.written = .ok as →
    ∀ a ∈ as, a.payload = e.payload.take 123 := by
  intro h
  have hc := exLogEntry_clean [254, 1] (by decide)
  have hr := c92_cut_at_marker exLogParsers [] (by simp [Plain]) [] (by simp) [] .nil _ hc [7] (by decide +kernel) ⟨20, 4, 1, [254, 1]⟩
    ⟨rfl, rfl, rfl, rfl⟩
  have := h exLogParsers { exLogEntry [254, 1] with payload := [254, 1] ++ (text "data success: " ++ [7]) } _ hc.num hc.time
    hc.between hc.size hc.flag hr _ (List.mem_singleton.2 rfl)
  revert this
  decide +kernel

end NR
