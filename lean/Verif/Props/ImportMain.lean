import Verif.Model.ImportMain
import Verif.Spec.Utf16
import Verif.Props.Argparse
import Verif.Props.Klc
import Verif.Props.Mediawiki

/-!
# C136: `lulua-import` as a whole
-/

namespace Lulua.Props
open Lulua Spec

theorem units_iff (le : Bool) : ∀ (b : List UInt8) (us : List Nat),
    utf16Units le b = .ok us ↔ b = us.flatMap (utf16Bytes le) ∧ ∀ u ∈ us, u < 65536
  | [], us => by
    simp only [utf16Units, Except.ok.injEq]
    constructor
    · rintro rfl
      simp
    · rintro ⟨h, _⟩
      cases us with
      | nil => rfl
      | cons u us => cases le <;> simp [utf16Bytes] at h
  | [a], us => by
    simp only [utf16Units, reduceCtorEq, false_iff, not_and]
    intro h
    cases us with
    | nil => simp at h
    | cons u us => cases le <;> simp [utf16Bytes] at h
  | a :: b :: r, us => by
    have ha := a.toNat_lt
    have hb := b.toNat_lt
    simp only [utf16Units, bind_ok_iff, Except.ok.injEq]
    constructor
    · rintro ⟨us', h1, rfl⟩
      obtain ⟨rfl, h2⟩ := (units_iff le r us').1 h1
      cases le with
      | true =>
        have e1 : (a.toNat + 256 * b.toNat) % 256 = a.toNat := by omega
        have e2 : (a.toNat + 256 * b.toNat) / 256 = b.toNat := by omega
        refine ⟨by simp [utf16Bytes, e1, e2], ?_⟩
        intro u hu
        rcases List.mem_cons.1 hu with rfl | hu
        · simp only [if_true]; omega
        · exact h2 u hu
      | false =>
        have e1 : (256 * a.toNat + b.toNat) % 256 = b.toNat := by omega
        have e2 : (256 * a.toNat + b.toNat) / 256 = a.toNat := by omega
        refine ⟨by simp [utf16Bytes, e1, e2], ?_⟩
        intro u hu
        rcases List.mem_cons.1 hu with rfl | hu
        · simp only [Bool.false_eq_true, if_false]; omega
        · exact h2 u hu
    · rintro ⟨h1, h2⟩
      cases us with
      | nil => simp at h1
      | cons u us =>
        have hu := h2 u List.mem_cons_self
        have m1 : (UInt8.ofNat (u % 256)).toNat = u % 256 := by simp
        have m2 : (UInt8.ofNat (u / 256)).toNat = u / 256 := by simp; omega
        cases le with
        | true =>
          simp only [List.flatMap_cons, utf16Bytes, if_true, List.cons_append, List.nil_append, List.cons.injEq] at h1
          obtain ⟨rfl, rfl, h1⟩ := h1
          refine ⟨us, (units_iff true r us).2 ⟨h1, fun v hv => h2 v (List.mem_cons_of_mem _ hv)⟩, ?_⟩
          simp only [if_true, m1, m2, List.cons.injEq, and_true]
          omega
        | false =>
          simp only [List.flatMap_cons, utf16Bytes, Bool.false_eq_true, if_false, List.cons_append, List.nil_append, List.cons.injEq] at h1
          obtain ⟨rfl, rfl, h1⟩ := h1
          refine ⟨us, (units_iff false r us).2 ⟨h1, fun v hv => h2 v (List.mem_cons_of_mem _ hv)⟩, ?_⟩
          simp only [Bool.false_eq_true, if_false, m1, m2, List.cons.injEq, and_true]
          omega

theorem toNat_ofNat {n : Nat} (h : n < 0xd800 ∨ 0xdfff < n ∧ n < 0x110000) : (Char.ofNat n).toNat = n := by
  have hv : n.isValidChar := h
  simp [Char.ofNat, hv, Char.ofNatAux, Char.toNat]

theorem char_valid (c : Char) : c.toNat < 0xd800 ∨ 0xdfff < c.toNat ∧ c.toNat < 0x110000 := c.valid

theorem ofNat_toNat' (c : Char) : Char.ofNat c.toNat = c := Char.ofNat_toNat c

theorem unit_lt (c : Char) : ∀ u ∈ utf16Char c, u < 65536 := by
  intro u hu
  have := char_valid c
  unfold utf16Char at hu
  split at hu
  · rw [List.mem_singleton] at hu; omega
  · rcases List.mem_cons.1 hu with rfl | hu
    · omega
    · rw [List.mem_singleton] at hu; omega

theorem chars_cons (u : Nat) (us : List Nat) : utf16Chars (u :: us) =
    if u < 0xd800 ∨ 0xdfff < u then do
      let t ← utf16Chars us
      .ok (Char.ofNat u :: t)
    else
      match us with
      | [] => .error .valueError
      | v :: vs =>
        if u < 0xdc00 ∧ 0xdc00 ≤ v ∧ v < 0xe000 then do
          let t ← utf16Chars vs
          .ok (Char.ofNat (0x10000 + 1024 * (u - 0xd800) + (v - 0xdc00)) :: t)
        else .error .valueError := by
  rw [utf16Chars.eq_def]
  cases us <;> rfl

theorem chars_encode (t : Text) : utf16Chars (t.flatMap utf16Char) = .ok t := by
  induction t with
  | nil => rfl
  | cons c t ih =>
    have hv := char_valid c
    by_cases h : c.toNat < 0x10000
    · have e : utf16Char c = [c.toNat] := if_pos h
      rw [List.flatMap_cons, e, List.singleton_append, chars_cons, if_pos (by omega), ih]
      simp only [bind, Except.bind, ofNat_toNat']
    · have e : utf16Char c = [0xd800 + (c.toNat - 0x10000) / 1024, 0xdc00 + (c.toNat - 0x10000) % 1024] := if_neg h
      rw [List.flatMap_cons, e, List.cons_append, List.singleton_append, chars_cons, if_neg (by omega)]
      simp only []
      rw [if_pos (by omega), ih]
      have e2 : 0x10000 + 1024 * (0xd800 + (c.toNat - 0x10000) / 1024 - 0xd800) + (0xdc00 + (c.toNat - 0x10000) % 1024 - 0xdc00) = c.toNat := by
        omega
      simp only [bind, Except.bind, e2, ofNat_toNat']

theorem chars_decode : ∀ (us : List Nat) (t : Text), (∀ u ∈ us, u < 65536) → utf16Chars us = .ok t → us = t.flatMap utf16Char
  | [], t, _, h => by
    simp only [utf16Chars, Except.ok.injEq] at h
    subst h
    rfl
  | u :: us, t, hu, h => by
    have hu0 := hu u List.mem_cons_self
    rw [chars_cons] at h
    split at h
    · rename_i hr
      simp only [bind_ok_iff, Except.ok.injEq] at h
      obtain ⟨t', h1, rfl⟩ := h
      have ih := chars_decode us t' (fun v hv => hu v (List.mem_cons_of_mem _ hv)) h1
      have e : (Char.ofNat u).toNat = u := toNat_ofNat (by omega)
      rw [List.flatMap_cons, utf16Char, e, if_pos (by omega), ← ih]
      rfl
    · rename_i hr
      split at h
      · cases h
      · rename_i v vs
        split at h
        · rename_i hs
          simp only [bind_ok_iff, Except.ok.injEq] at h
          obtain ⟨t', h1, rfl⟩ := h
          have ih := chars_decode vs t' (fun w hw => hu w (List.mem_cons_of_mem _ (List.mem_cons_of_mem _ hw))) h1
          have e : (Char.ofNat (0x10000 + 1024 * (u - 0xd800) + (v - 0xdc00))).toNat = 0x10000 + 1024 * (u - 0xd800) + (v - 0xdc00) :=
            toNat_ofNat (by omega)
          rw [List.flatMap_cons, utf16Char, e, if_neg (by omega), ← ih]
          have e1 : 0xd800 + (0x10000 + 1024 * (u - 0xd800) + (v - 0xdc00) - 0x10000) / 1024 = u := by omega
          have e2 : 0xdc00 + (0x10000 + 1024 * (u - 0xd800) + (v - 0xdc00) - 0x10000) % 1024 = v := by omega
          rw [e1, e2]
          rfl
        · cases h

theorem body_iff (le : Bool) (b : List UInt8) (t : Text) : (utf16Units le b >>= utf16Chars) = .ok t ↔ b = utf16 le t := by
  rw [bind_ok_iff]
  constructor
  · rintro ⟨us, h1, h2⟩
    obtain ⟨rfl, h3⟩ := (units_iff le b us).1 h1
    rw [utf16, ← chars_decode us t h3 h2]
  · rintro rfl
    refine ⟨t.flatMap utf16Char, (units_iff le _ _).2 ⟨rfl, ?_⟩, chars_encode t⟩
    intro u hu
    obtain ⟨c, _, hc⟩ := List.mem_flatMap.1 hu
    exact unit_lt c u hc

/-- **C136** (reading): exactly empty files and files in UTF-16 with a byte order mark can be read, and what is read is the text
written, in either byte order. -/
theorem C136_read (b : List UInt8) (t : Text) : decodeUtf16 b = .ok t ↔ b = [] ∧ t = [] ∨ ∃ le, b = utf16File le t := by
  have e1 : utf16Bytes true 0xfeff = [0xff, 0xfe] := rfl
  have e2 : utf16Bytes false 0xfeff = [0xfe, 0xff] := rfl
  unfold decodeUtf16
  split
  · simp only [Except.ok.injEq, true_and]
    constructor
    · rintro rfl
      exact .inl rfl
    · rintro (rfl | ⟨le, h⟩)
      · rfl
      · cases le <;> simp [utf16File, e1, e2] at h
  · rename_i r
    rw [body_iff]
    constructor
    · rintro rfl
      exact .inr ⟨true, rfl⟩
    · rintro (⟨h, _⟩ | ⟨le, h⟩)
      · cases h
      · cases le with
        | true => simpa [utf16File, e1] using h
        | false => simp [utf16File, e2] at h
  · rename_i r
    rw [body_iff]
    constructor
    · rintro rfl
      exact .inr ⟨false, rfl⟩
    · rintro (⟨h, _⟩ | ⟨le, h⟩)
      · cases h
      · cases le with
        | false => simpa [utf16File, e2] using h
        | true => simp [utf16File, e1] at h
  · rename_i h1 h2 h3
    simp only [reduceCtorEq, false_iff]
    rintro (⟨h, _⟩ | ⟨le, h⟩)
    · exact h1 h
    · cases le with
      | true => exact h2 _ h
      | false => exact h3 _ h

/-! ### Lines -/

/-- Ends of lines. -/
def lineEnds : List Text := [['\n'], ['\r', '\n'], ['\r']]

theorem universal_end {e : Text} (he : e ∈ lineEnds) {r : Text} (hr : r.head? ≠ some '\n') :
    universalNewlines (e ++ r) = '\n' :: universalNewlines r := by
  simp only [lineEnds, List.mem_cons, List.not_mem_nil, or_false] at he
  rcases he with rfl | rfl | rfl
  · rw [List.singleton_append, universalNewlines] <;> simp
  · rfl
  · cases r with
    | nil => rfl
    | cons c r =>
      have hc : c ≠ '\n' := by rintro rfl; simp at hr
      rw [List.singleton_append, universalNewlines]
      intros
      simp_all

theorem universal_lines {e : Text} (he : e ∈ lineEnds) : ∀ ls : List Text, (∀ l ∈ ls, '\n' ∉ l ∧ '\r' ∉ l) →
    universalNewlines (ls.flatMap fun l => l ++ e) = ls.flatMap fun l => l ++ ['\n']
  | [], _ => rfl
  | l :: ls, h => by
    have ih := universal_lines he ls fun x hx => h x (List.mem_cons_of_mem _ hx)
    have h0 := h l List.mem_cons_self
    rw [List.flatMap_cons, List.append_assoc, universal_line h0.2, List.flatMap_cons, ← ih]
    simp only [lineEnds, List.mem_cons, List.not_mem_nil, or_false] at he
    rcases he with rfl | rfl | rfl
    · rw [List.singleton_append, universalNewlines, List.append_assoc] <;> simp
    · rw [List.append_assoc]
      rfl
    · rw [universal_end (by simp [lineEnds]), List.append_assoc]
      · rfl
      · cases ls with
        | nil => simp
        | cons m ls =>
          have h1 := h m (List.mem_cons_of_mem _ List.mem_cons_self)
          cases m with
          | nil => simp
          | cons c m =>
            have : c ≠ '\n' := by rintro rfl; simp at h1
            simpa using this

/-! ### The program -/

theorem import_attrs (w : ArgWorld) {f : Text} (hf : PlainWord f) :
    ∃ ns, importProgram.start w [f, "klc".toList] = .ok ns ∧ ns.get? "input" = some (.text f) := by
  obtain ⟨ns, h1, h2⟩ := (C127_files w f hf).1
  exact ⟨ns, h1, (h2 _ _).2 (by simp)⟩

theorem import_file {w : ImportWorld} {f : Text} (hf : PlainWord f) : importMain w [f, "klc".toList] = .ok (match w.file f with
    | none => .error .fileNotFound
    | some b => do
      let t ← decodeUtf16 b
      let layers ← fromKlc w.isSpace w.dig w.nfd (stdinLines t)
      .ok (importKlc w.val layers)) := by
  obtain ⟨ns, h1, h2⟩ := import_attrs w.args hf
  simp only [importMain, importFile, h1, h2, bind, Except.bind]
  rfl

/-- **C136** (partial: files in UTF-16 with a byte order mark): in either byte order and with any of the three ends of lines the lines
of the file are imported as they are. -/
theorem C136_import_partial (w : ImportWorld) (f : Text) (hf : PlainWord f) (le : Bool) (e : Text) (he : e ∈ lineEnds) (ls : List Text)
    (hls : ∀ l ∈ ls, '\n' ∉ l ∧ '\r' ∉ l) (h : w.file f = some (utf16File le (ls.flatMap fun l => l ++ e))) :
    importMain w [f, "klc".toList] =
      .ok ((fromKlc w.isSpace w.dig w.nfd (ls.map fun l => l ++ ['\n'])).map (importKlc w.val)) := by
  rw [import_file hf, h]
  simp only [(C136_read _ _).2 (.inr ⟨le, rfl⟩), bind, Except.bind]
  have e1 : stdinLines (ls.flatMap fun l => l ++ e) = ls.map fun l => l ++ ['\n'] := by
    unfold stdinLines
    rw [universal_lines he ls hls, splitAfter_lines fun l hl => (hls l hl).1]
  rw [e1]
  cases fromKlc w.isSpace w.dig w.nfd (ls.map fun l => l ++ ['\n']) <;> rfl

/-- **C136** (other files): a file that is not there, or neither empty nor in UTF-16 with a byte order mark, ends the program. -/
theorem C136_refused (w : ImportWorld) (f : Text) (hf : PlainWord f) :
    (w.file f = none → importMain w [f, "klc".toList] = .ok (.error .fileNotFound)) ∧
    ∀ b, w.file f = some b → b ≠ [] → (∀ le t, b ≠ utf16File le t) → ∃ e, importMain w [f, "klc".toList] = .ok (.error e) := by
  constructor
  · intro h
    rw [import_file hf, h]
  · intro b h hb hn
    rw [import_file hf, h]
    cases hd : decodeUtf16 b with
    | error e => exact ⟨e, by simp only [hd, bind, Except.bind]⟩
    | ok t =>
      rcases (C136_read b t).1 hd with ⟨h1, _⟩ | ⟨le, h1⟩
      · exact absurd h1 hb
      · exact absurd h1 (hn le t)

theorem utf8_head (c : Char) : ∃ b r, String.utf8EncodeChar c = b :: r ∧ b ≠ 0xff ∧ b ≠ 0xfe := by
  have key : ∀ n : Nat, n < 254 → UInt8.ofNat n ≠ 0xff ∧ UInt8.ofNat n ≠ 0xfe := by
    intro n hn
    constructor <;> intro h
    · have := congrArg UInt8.toNat h
      rw [UInt8.toNat_ofNat'] at this
      have e : (0xff : UInt8).toNat = 255 := rfl
      omega
    · have := congrArg UInt8.toNat h
      rw [UInt8.toNat_ofNat'] at this
      have e : (0xfe : UInt8).toNat = 254 := rfl
      omega
  unfold String.utf8EncodeChar
  dsimp only
  split
  · exact ⟨_, _, rfl, key _ (by omega)⟩
  · split
    · exact ⟨_, _, rfl, key _ (by omega)⟩
    · split
      · exact ⟨_, _, rfl, key _ (by omega)⟩
      · exact ⟨_, _, rfl, key _ (by omega)⟩

/-- **C136** is false as a user expects it: a file in UTF-8 cannot be imported. -/
theorem C136_false (w : ImportWorld) (f : Text) (hf : PlainWord f) (t : Text) (ht : t ≠ [])
    (h : w.file f = some (t.flatMap String.utf8EncodeChar)) : importMain w [f, "klc".toList] = .ok (.error .valueError) := by
  obtain ⟨c, r, rfl⟩ := List.exists_cons_of_ne_nil ht
  obtain ⟨b, r', h1, h2, h3⟩ := utf8_head c
  rw [import_file hf, h]
  have hd : decodeUtf16 ((c :: r).flatMap String.utf8EncodeChar) = .error .valueError := by
    rw [List.flatMap_cons, h1, List.cons_append]
    unfold decodeUtf16
    split
    · rename_i hx; cases hx
    · rename_i hx; exact absurd (List.cons.inj hx).1 h2
    · rename_i hx; exact absurd (List.cons.inj hx).1 h3
    · rfl
  simp only [hd, bind, Except.bind]

/-- **C136** (using the result): whatever is printed, the other programs cannot use it with the keyboard `ibmpc105` as it is (C69). -/
theorem C136_unusable (w : ImportWorld) (hp : PlainMarkers w.isSpace) (argv : List Text) (d : LayoutData)
    (h : importMain w argv = .ok (.ok d)) (names : List String) (t : InternTable) (kb : PhysicalKeyboard) (d' : KeyboardData)
    (hk : PhysicalKeyboard.deserialize (tableAfter names) Data.ibmpc105 = .ok (t, kb, d')) :
    (GenericLayout.deserialize d).specialize t kb = .error .keyError := by
  unfold importMain at h
  cases hs : importProgram.start w.args argv with
  | error e => rw [hs] at h; cases h
  | ok ns =>
  rw [hs] at h
  have h : importFile w ns = .ok d := Except.ok.inj h
  unfold importFile at h
  split at h
  · split at h
    · cases h
    · simp only [bind_ok_iff, Except.ok.injEq] at h
      obtain ⟨tx, _, layers, h1, rfl⟩ := h
      exact C69_false names t kb d' hk w.isSpace hp w.dig w.nfd w.val _ layers h1
  · cases h

/-! ### Cases meeting the hypotheses -/

def demoImport (b : List UInt8) : ImportWorld where
  args := argWorld
  file := fun f => if f = "a.klc".toList then some b else none
  isSpace := fun c => c = ' ' || c = '\t' || c = '\n'
  dig := fun _ => none
  nfd := fun n => [n]
  val := fun l => .str (l.map Char.ofNat)

def demoKlcLines : List Text := ["// 𐀀 ä".toList, "LAYOUT".toList, "10 Q 1 0642 %% -1 // q".toList]

example : importMain (demoImport (utf16File false (demoKlcLines.flatMap fun l => l ++ ['\r']))) ["a.klc".toList, "klc".toList] =
    importMain (demoImport (utf16File true (demoKlcLines.flatMap fun l => l ++ ['\r', '\n']))) ["a.klc".toList, "klc".toList] ∧
    (fromKlc (demoImport []).isSpace (demoImport []).dig (demoImport []).nfd (demoKlcLines.map fun l => l ++ ['\n'])).toOption.map
      (fun ls => ls.map List.length) = some [1, 0, 0, 0, 0, 0] := by
  have hls : ∀ l ∈ demoKlcLines, '\n' ∉ l ∧ '\r' ∉ l := by decide +kernel
  constructor
  · rw [C136_import_partial _ _ (by simp [PlainWord]) false ['\r'] (by simp [lineEnds]) demoKlcLines hls rfl,
      C136_import_partial _ _ (by simp [PlainWord]) true ['\r', '\n'] (by simp [lineEnds]) demoKlcLines hls rfl]
    rfl
  · decide +kernel

example : decodeUtf16 [0xff, 0xfe, 0x61, 0, 0, 0xd8, 0, 0xdc] = .ok ['a', '𐀀'] ∧ decodeUtf16 [0xff, 0xfe, 0, 0xd8] = .error .valueError ∧
    decodeUtf16 [0x61, 0] = .error .valueError := by decide +kernel

example : importMain (demoImport ("LAYOUT".toList.flatMap String.utf8EncodeChar)) ["a.klc".toList, "klc".toList] =
    .ok (.error .valueError) := C136_false _ _ (by simp [PlainWord]) _ (by decide) rfl

end Lulua.Props
