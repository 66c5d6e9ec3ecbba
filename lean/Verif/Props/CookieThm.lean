import Verif.Props.HstsThm

/-!
# Set-Cookie (C59-C61)
-/

namespace HL.Props
open HL.F

/-! ### computations that return -/

/-- a computation returns `a`, adding notes of classes `cs`, all about `s` -/
structure Does {α} (w : W α) (s : Str) (cs : List NoteId) (a : α) : Prop where
  notes : w.notes.map tag = cs.map (·, s)
  res : w.res = .ok a

theorem Does.bind {α β} {x : W α} {f : α → W β} {s cs ds a b} (hx : Does x s cs a) (hf : Does (f a) s ds b) : Does (x >>= f) s (cs ++ ds) b := by
  rw [W.bind_ok hx.res]
  exact ⟨by rw [List.map_append, List.map_append, hx.notes, hf.notes], hf.res⟩

theorem Does.seq {β} {x : W Unit} {k : W β} {s cs ds b} (hx : Does x s cs ()) (hf : Does k s ds b) : Does (do x; k) s (cs ++ ds) b :=
  Does.bind (f := fun _ => k) hx hf

theorem Does.pure {α} (a : α) (s) : Does (pure a : W α) s [] a := ⟨rfl, rfl⟩

theorem Does.add {α} {add : AddNote} {X vrs} {k : W α} {cs a} (h : Does k add.subject cs a) : Does (do add.add X vrs; k) add.subject (X :: cs) a :=
  Does.bind (cs := [X]) (a := ()) ⟨rfl, rfl⟩ h

theorem Does.when {c : Bool} {x : W Unit} {s cs} (h : Does x s cs ()) : Does (W.when c x) s (if c then cs else []) () := by
  cases c
  · exact Does.pure () s
  · exact h

theorem Does.add1 (add : AddNote) (X vrs) : Does (add.add X vrs) add.subject [X] () := ⟨rfl, rfl⟩

theorem Does.congr {α} {w : W α} {s cs cs' a} (h : Does w s cs a) (e : cs = cs') : Does w s cs' a := e ▸ h

theorem Does.forEach {α} (xs : List α) {f : α → W Unit} {s} {cs : α → List NoteId} (h : ∀ x ∈ xs, Does (f x) s (cs x) ()) :
    Does (W.forEach xs f) s (xs.flatMap cs) () := by
  induction xs with
  | nil => exact Does.pure () s
  | cons x xs ih =>
    unfold W.forEach
    exact Does.bind (h x (by simp)) (ih fun y hy => h y (by simp [hy]))

/-! ### specification -/

/-- what comes before the first `c`, everything if there is none -/
def beforeC (c : Nat) (s : Str) : Str := s.takeWhile (· != c)
/-- what comes after the first `c`, nothing if there is none -/
def afterC (c : Nat) (s : Str) : Str := (s.dropWhile (· != c)).drop 1

/-- the name of a cookie: what comes before the first `=` of what comes before the first `;`; empty if there is no `=` there -/
def cookieName (s : Str) : Str := if 61 ∈ beforeC 59 s then strip (beforeC 61 (beforeC 59 s)) else []
/-- the value of a cookie -/
def cookieValue (s : Str) : Str := if 61 ∈ beforeC 59 s then strip (afterC 61 (beforeC 59 s)) else strip (beforeC 59 s)
/-- the attributes as they are written: name and value, which is empty if there is no `=` -/
def cookieAttrs (s : Str) : List (Str × Str) :=
  let pieces := splitOn 59 (afterC 59 s)
  (if pieces.getLast? = some [] then pieces.dropLast else pieces).map fun p => (strip (beforeC 61 p), strip (afterC 61 p))

/-- the name of an attribute, in lower case -/
def attrIs (a : Str × Str) (name : Str) : Bool := lower a.1 == name

/-- `Max-Age` made of characters that count as digits, but don't make a number (`²`) -/
def attrUnreadable (a : Str × Str) : Bool := attrIs a (str "max-age") && isDigit a.2 && (pyInt a.2).isNone

/-- what is recorded for an attribute, if anything -/
def attrRecord (uriPath : Str) (a : Str × Str) : Option (Str × Val) :=
  if attrIs a (str "expires") then (looseDateParse a.2).toOption.map fun t => (str "Expires", .int t)
  else if attrIs a (str "max-age") then (if isDigit a.2 then (pyInt a.2).map fun d => (str "Max-Age", .int d) else none)
  else if attrIs a (str "domain") then
    (if a.2 = [] then none else some (str "Domain", .str (if a.2.head? = some 46 then a.2.tail else a.2)))
  else if attrIs a (str "path") then some (str "Path", .str (cookiePath uriPath a.2))
  else if attrIs a (str "secure") then some (str "Secure", .str [])
  else if attrIs a (str "httponly") then some (str "HttpOnly", .str [])
  else if attrIs a (str "samesite") then
    (if lower a.2 = str "strict" then some (str "SameSite", .str (str "Strict"))
     else if lower a.2 = str "none" then some (str "SameSite", .str (str "None"))
     else if lower a.2 = str "lax" ∨ a.2 = [] then some (str "SameSite", .str (str "Lax"))
     else none)
  else if attrIs a (str "partitioned") then some (str "Partitioned", .str [])
  else none

/-- the names of attributes that mean something -/
def knownAttrs : List Str := [str "expires", str "max-age", str "domain", str "path", str "secure", str "httponly", str "samesite", str "partitioned",
  str "priority", str "version"]

/-- what is wrong with an attribute on its own -/
def attrProblems (a : Str × Str) : List NoteId :=
  (if attrIs a (str "expires") && (looseDateParse a.2).toOption.isNone then [.SET_COOKIE_BAD_DATE] else []) ++
  (if attrIs a (str "max-age") && a.2.isEmpty then [.SET_COOKIE_EMPTY_MAX_AGE] else []) ++
  (if attrIs a (str "max-age") && (a.2.head? == some 48) && decide (1 < a.2.length) then [.SET_COOKIE_LEADING_ZERO_MAX_AGE] else []) ++
  (if attrIs a (str "max-age") && !a.2.isEmpty && !isDigit a.2 then [.SET_COOKIE_NON_DIGIT_MAX_AGE] else []) ++
  (if attrIs a (str "domain") && a.2.isEmpty then [.SET_COOKIE_EMPTY_DOMAIN] else []) ++
  (if attrIs a (str "samesite") && !([str "strict", str "none", str "lax", []].contains (lower a.2)) then [.SET_COOKIE_UNKNOWN_ATTRIBUTE_VALUE] else []) ++
  (if attrIs a (str "priority") then [.SET_COOKIE_PRIORITY] else []) ++
  (if attrIs a (str "version") then [.SET_COOKIE_VERSION] else []) ++
  (if !(knownAttrs.contains (lower a.1)) then [.SET_COOKIE_UNKNOWN_ATTRIBUTE] else [])

/-- does an attribute ask for more than 400 days? (`now` is when the message started, if that is known) -/
def attrTooLong (now : Option Rat) (a : Str × Str) : Bool :=
  (attrIs a (str "expires") && match (looseDateParse a.2).toOption, now with
    | some t, some now => decide (now ≠ 0 ∧ (t : Rat) > now + (400 * 24 * 60 * 60 : Int))
    | _, _ => false) ||
  (attrIs a (str "max-age") && isDigit a.2 && match pyInt a.2 with
    | some d => decide (d > 400 * 24 * 60 * 60)
    | none => false)

/-- the notes for an attribute, given the attributes before it -/
def attrNotes (now : Option Rat) (before : List (Str × Str)) (a : Str × Str) : List NoteId :=
  (if before.any (fun b => lower b.1 == lower a.1) then [.SET_COOKIE_ATTRIBUTE_DUP] else []) ++ attrProblems a ++
  (if attrTooLong now a && !before.any (attrTooLong now) then [.SET_COOKIE_LIFETIME_TOO_LONG] else [])

/-! ### attributes -/

theorem lower_ne_nil {s : Str} : lower s = [] ↔ s = [] := by
  unfold lower; rw [List.map_eq_nil_iff]

theorem attr_step (a : Str × Str) (ck : Str) (attrs : Attrs) (uriPath : Str) (now : Option Rat) (add : AddNote) (lt : Bool)
    (h : attrUnreadable a = false) :
    Does (processCookieAttribute a.1 a.2 ck attrs uriPath now add lt) add.subject
      (attrProblems a ++ if attrTooLong now a && !lt then [.SET_COOKIE_LIFETIME_TOO_LONG] else [])
      (attrs ++ (attrRecord uriPath a).toList, lt || attrTooLong now a) := by
  obtain ⟨nm, v⟩ := a
  have hadd : ∀ {X vrs attrs' lt' cs at2 lt2}, cs = [X] → at2 = attrs' → lt2 = lt' →
      Does (do add.add X vrs; return (attrs', lt')) add.subject cs ((at2, lt2) : Attrs × Bool) := by
    intro X vrs attrs' lt' cs at2 lt2 e1 e2 e3
    subst e1; subst e2; subst e3
    exact Does.add (Does.pure _ _)
  have hret : ∀ {attrs' lt' cs at2 lt2}, cs = [] → at2 = attrs' → lt2 = lt' → Does (pure (attrs', lt')) add.subject cs ((at2, lt2) : Attrs × Bool) := by
    intro attrs' lt' cs at2 lt2 e1 e2 e3
    subst e1; subst e2; subst e3
    exact Does.pure _ _
  unfold processCookieAttribute
  dsimp only
  by_cases h1 : lower nm = str "expires"
  · have e1 : attrProblems (nm, v) = if (looseDateParse v).toOption.isNone then [.SET_COOKIE_BAD_DATE] else [] := by
      simp [attrProblems, attrIs, h1, knownAttrs]
    have e2 : attrRecord uriPath (nm, v) = (looseDateParse v).toOption.map fun t => (str "Expires", .int t) := by
      simp [attrRecord, attrIs, h1]
    have e3 : attrTooLong now (nm, v) = match (looseDateParse v).toOption, now with
        | some t, some now => decide (now ≠ 0 ∧ (t : Rat) > now + (400 * 24 * 60 * 60 : Int))
        | _, _ => false := by
      simp only [attrTooLong, attrIs, h1]; simp
    rw [if_pos h1, e1, e2]
    cases hd : looseDateParse v with
    | error why =>
      rw [hd] at e3
      rw [show attrTooLong now (nm, v) = false by rw [e3]; rfl]
      apply hadd <;> simp [Except.toOption]
    | ok t =>
      rw [hd] at e3
      cases now with
      | none =>
        rw [show attrTooLong none (nm, v) = false by rw [e3]; rfl]
        apply hret <;> simp [Except.toOption]
      | some now =>
        dsimp only [Except.toOption] at e3 ⊢
        by_cases hc : now ≠ 0 ∧ (t : Rat) > now + (400 * 24 * 60 * 60 : Int)
        · cases lt
          · have : now ≠ 0 ∧ (t : Rat) > now + maxCookieLifetime ∧ false = false := ⟨hc.1, hc.2, rfl⟩
            rw [if_pos this, show attrTooLong (some now) (nm, v) = true by rw [e3]; exact decide_eq_true hc]
            apply hadd <;> simp
          · rw [if_neg (by simp)]
            apply hret <;> simp
        · have : ¬ (now ≠ 0 ∧ (t : Rat) > now + maxCookieLifetime ∧ lt = false) := fun h => hc ⟨h.1, h.2.1⟩
          rw [if_neg this, show attrTooLong (some now) (nm, v) = false by rw [e3]; exact decide_eq_false hc]
          apply hret <;> simp
  rw [if_neg h1]
  by_cases h2 : lower nm = str "max-age"
  · have e1 : attrProblems (nm, v) = if v = [] then [.SET_COOKIE_EMPTY_MAX_AGE] else
        (if (v.head? == some 48 && decide (v.length > 1)) then [.SET_COOKIE_LEADING_ZERO_MAX_AGE] else []) ++
        (if !isDigit v then [.SET_COOKIE_NON_DIGIT_MAX_AGE] else []) := by
      cases v <;> simp [attrProblems, attrIs, h2, knownAttrs]
    have e2 : attrRecord uriPath (nm, v) = if isDigit v then (pyInt v).map fun d => (str "Max-Age", .int d) else none := by
      simp [attrRecord, attrIs, h2]
    have e3 : attrTooLong now (nm, v) = (isDigit v && match pyInt v with
        | some d => decide (d > 400 * 24 * 60 * 60)
        | none => false) := by
      simp only [attrTooLong, attrIs, h2]; simp
    have hu : isDigit v = true → (pyInt v).isSome = true := by
      intro hd
      simp only [attrUnreadable, attrIs, h2, hd] at h
      cases hp : pyInt v with
      | none => rw [hp] at h; simp at h
      | some d => rfl
    rw [if_pos h2, e1, e2]
    by_cases hv : v = []
    · subst hv
      rw [if_pos rfl, if_pos rfl, show attrTooLong now (nm, []) = false by rw [e3]; rfl]
      apply hadd <;> simp [isDigit]
    · rw [if_neg hv, if_neg hv, List.append_assoc]
      refine Does.bind (Does.when (Does.add1 _ _ _)) ?_
      cases hd : isDigit v with
      | false =>
        rw [show attrTooLong now (nm, v) = false by rw [e3, hd]; rfl]
        simp only [Bool.not_false, if_true]
        apply hadd <;> simp
      | true =>
        obtain ⟨d, hp⟩ := Option.isSome_iff_exists.1 (hu hd)
        simp only [Bool.not_true, Bool.false_eq_true, if_false, hp]
        by_cases hc : d > maxCookieLifetime
        · have hc' : decide (d > 400 * 24 * 60 * 60) = true := decide_eq_true hc
          rw [show attrTooLong now (nm, v) = true by rw [e3, hd, hp]; exact hc']
          cases lt
          · rw [if_pos ⟨hc, rfl⟩]
            apply hadd <;> simp
          · rw [if_neg (by simp)]
            apply hret <;> simp
        · have hc' : decide (d > 400 * 24 * 60 * 60) = false := decide_eq_false hc
          rw [if_neg (fun h => hc h.1), show attrTooLong now (nm, v) = false by rw [e3, hd, hp]; exact hc']
          apply hret <;> simp
  rw [if_neg h2]
  have e3 : attrTooLong now (nm, v) = false := by
    have h1' : (lower nm == str "expires") = false := by simpa using h1
    have h2' : (lower nm == str "max-age") = false := by simpa using h2
    simp only [attrTooLong, attrIs, h1', h2']; rfl
  rw [e3, Bool.false_and]
  simp only [Bool.false_eq_true, if_false, List.append_nil, Bool.or_false]
  by_cases h3 : lower nm = str "domain"
  · have e1 : attrProblems (nm, v) = if v = [] then [.SET_COOKIE_EMPTY_DOMAIN] else [] := by
      cases v <;> simp [attrProblems, attrIs, h3, knownAttrs]
    have e2 : attrRecord uriPath (nm, v) = if v = [] then none else some (str "Domain", .str (if v.head? = some 46 then v.tail else v)) := by
      simp [attrRecord, attrIs, h3]
    rw [if_pos h3, e1, e2]
    cases v with
    | nil => apply hadd <;> simp
    | cons c r => apply hret <;> simp
  rw [if_neg h3]
  by_cases h4 : lower nm = str "path"
  · have e1 : attrProblems (nm, v) = [] := by simp [attrProblems, attrIs, h4, knownAttrs]
    have e2 : attrRecord uriPath (nm, v) = some (str "Path", .str (cookiePath uriPath v)) := by simp [attrRecord, attrIs, h4]
    rw [if_pos h4, e1, e2]
    apply hret <;> simp
  rw [if_neg h4]
  by_cases h5 : lower nm = str "secure"
  · have e1 : attrProblems (nm, v) = [] := by simp [attrProblems, attrIs, h5, knownAttrs]
    have e2 : attrRecord uriPath (nm, v) = some (str "Secure", .str []) := by simp [attrRecord, attrIs, h5]
    rw [if_pos h5, e1, e2]
    apply hret <;> simp
  rw [if_neg h5]
  by_cases h6 : lower nm = str "httponly"
  · have e1 : attrProblems (nm, v) = [] := by simp [attrProblems, attrIs, h6, knownAttrs]
    have e2 : attrRecord uriPath (nm, v) = some (str "HttpOnly", .str []) := by simp [attrRecord, attrIs, h6]
    rw [if_pos h6, e1, e2]
    apply hret <;> simp
  rw [if_neg h6]
  by_cases h7 : lower nm = str "samesite"
  · have e1 : attrProblems (nm, v) = if !([str "strict", str "none", str "lax", []].contains (lower v)) then [.SET_COOKIE_UNKNOWN_ATTRIBUTE_VALUE] else [] := by
      simp [attrProblems, attrIs, h7, knownAttrs]
    have e2 : attrRecord uriPath (nm, v) = if lower v = str "strict" then some (str "SameSite", .str (str "Strict"))
     else if lower v = str "none" then some (str "SameSite", .str (str "None"))
     else if lower v = str "lax" ∨ v = [] then some (str "SameSite", .str (str "Lax"))
     else none := by
      simp [attrRecord, attrIs, h7]
    rw [if_pos h7, e1, e2]
    by_cases s1 : lower v = str "strict"
    · rw [if_pos s1, if_pos s1, s1]
      apply hret <;> simp
    rw [if_neg s1, if_neg s1]
    by_cases s2 : lower v = str "none"
    · rw [if_pos s2, if_pos s2, s2]
      apply hret <;> simp
    rw [if_neg s2, if_neg s2]
    by_cases s3 : lower v = str "lax" ∨ v = []
    · rw [if_pos s3, if_pos (by rwa [lower_ne_nil])]
      have : [str "strict", str "none", str "lax", []].contains (lower v) = true := by
        rcases s3 with s | s
        · rw [s]; rfl
        · rw [s]; rfl
      rw [this]
      apply hret <;> simp
    · rw [if_neg s3, if_neg (by rwa [lower_ne_nil])]
      have : [str "strict", str "none", str "lax", []].contains (lower v) = false := by
        have s4 : lower v ≠ [] := fun h => s3 (.inr (lower_ne_nil.1 h))
        have s5 : lower v ≠ str "lax" := fun h => s3 (.inl h)
        simp [s1, s2, s4, s5]
      rw [this]
      apply hadd <;> simp
  rw [if_neg h7]
  by_cases h8 : lower nm = str "partitioned"
  · have e1 : attrProblems (nm, v) = [] := by simp [attrProblems, attrIs, h8, knownAttrs]
    have e2 : attrRecord uriPath (nm, v) = some (str "Partitioned", .str []) := by simp [attrRecord, attrIs, h8]
    rw [if_pos h8, e1, e2]
    apply hret <;> simp
  rw [if_neg h8]
  have e2 : attrRecord uriPath (nm, v) = none := by
    simp [attrRecord, attrIs, h1, h2, h3, h4, h5, h6, h7, h8]
  rw [e2]
  by_cases h9 : lower nm = str "priority"
  · have e1 : attrProblems (nm, v) = [.SET_COOKIE_PRIORITY] := by simp [attrProblems, attrIs, h9, knownAttrs]
    rw [if_pos h9, e1]
    apply hadd <;> simp
  rw [if_neg h9]
  by_cases h10 : lower nm = str "version"
  · have e1 : attrProblems (nm, v) = [.SET_COOKIE_VERSION] := by simp [attrProblems, attrIs, h10, knownAttrs]
    rw [if_pos h10, e1]
    apply hadd <;> simp
  rw [if_neg h10]
  have e1 : attrProblems (nm, v) = [.SET_COOKIE_UNKNOWN_ATTRIBUTE] := by
    simp [attrProblems, attrIs, h1, h2, h3, h7, h9, h10, knownAttrs, h4, h5, h6, h8]
  rw [e1]
  apply hadd <;> simp

/-! ### the list of attributes -/

theorem zipIdx_flatMap_cons {α β} (g : List α → α → List β) (pre : List α) (a : α) (as : List α) :
    (a :: as).zipIdx.flatMap (fun p => g (pre ++ (a :: as).take p.2) p.1) =
      g pre a ++ as.zipIdx.flatMap (fun p => g ((pre ++ [a]) ++ as.take p.2) p.1) := by
  rw [List.zipIdx_cons, List.flatMap_cons]
  congr 1
  · simp
  · rw [List.zipIdx_succ, List.flatMap_map]
    apply flatMap_congr_mem
    intro p _
    simp

/-- one attribute as it is written -/
def attrOf (piece : Str) : Str × Str := (strip (beforeC 61 piece), strip (afterC 61 piece))

theorem splitAttr_eq (p : Str) : splitAttr p = attrOf p := by
  unfold splitAttr attrOf beforeC afterC
  have e := split1_eq 61 p
  by_cases h : 61 ∈ p
  · rw [if_pos h] at e; rw [e]
  · rw [if_neg h] at e
    rw [e, takeWhile_none h]
    have : (p.dropWhile (· != 61)) = [] := by
      have h1 : p.takeWhile (· != 61) ++ p.dropWhile (· != 61) = p := List.takeWhile_append_dropWhile
      rw [takeWhile_none h] at h1
      simpa using h1
    rw [this]; rfl

/-- the notes for the attributes, in order -/
def allAttrNotes (now : Option Rat) (as : List (Str × Str)) : List NoteId := as.zipIdx.flatMap fun p => attrNotes now (as.take p.2) p.1

theorem attrLoop (ck uriPath : Str) (now : Option Rat) (add : AddNote) (ps : List Str) : ∀ (pre : List (Str × Str)) (seen : List Str) (attrs : Attrs),
    (∀ n, seen.contains n = pre.any (fun b => lower b.1 == n)) → (∀ p ∈ ps, attrUnreadable (attrOf p) = false) →
    Does (cookieAttrLoop ck uriPath now add ps seen attrs (pre.any (attrTooLong now))) add.subject
      ((ps.map attrOf).zipIdx.flatMap fun p => attrNotes now (pre ++ (ps.map attrOf).take p.2) p.1)
      (attrs ++ (ps.map attrOf).filterMap (attrRecord uriPath)) := by
  induction ps with
  | nil => intro pre seen attrs _ _; rw [List.map_nil, List.filterMap_nil, List.append_nil]; exact Does.pure _ _
  | cons p ps ih =>
    intro pre seen attrs hs hu
    rw [List.map_cons, zipIdx_flatMap_cons]
    unfold cookieAttrLoop
    rw [splitAttr_eq]
    dsimp only
    have hd : Does (W.when (seen.contains (lower (attrOf p).1))
        (add.add .SET_COOKIE_ATTRIBUTE_DUP [(str "cookie_name", .str ck), (str "attribute", .str (attrOf p).1)])) add.subject
        (if pre.any (fun b => lower b.1 == lower (attrOf p).1) then [.SET_COOKIE_ATTRIBUTE_DUP] else []) () := by
      rw [← hs]; exact Does.when (Does.add1 _ _ _)
    have hst := attr_step (attrOf p) ck attrs uriPath now add (pre.any (attrTooLong now)) (hu p (by simp))
    have hrec := ih (pre ++ [attrOf p]) (lower (attrOf p).1 :: seen) (attrs ++ (attrRecord uriPath (attrOf p)).toList) (by
      intro n
      rw [List.any_append, List.contains_cons, hs]
      simp only [List.any_cons, List.any_nil, Bool.or_false]
      rw [Bool.or_comm, Bool.beq_comm]) (fun q hq => hu q (by simp [hq]))
    rw [List.any_append, List.any_cons, List.any_nil, Bool.or_false] at hrec
    have hall := Does.seq hd (Does.bind (f := fun r : Attrs × Bool => cookieAttrLoop ck uriPath now add ps (lower (attrOf p).1 :: seen) r.1 r.2) hst hrec)
    have e : attrs ++ (attrOf p :: ps.map attrOf).filterMap (attrRecord uriPath) =
        attrs ++ (attrRecord uriPath (attrOf p)).toList ++ (ps.map attrOf).filterMap (attrRecord uriPath) := by
      rw [List.filterMap_cons]
      cases attrRecord uriPath (attrOf p) <;> simp
    rw [e]
    refine Does.congr hall ?_
    unfold attrNotes
    simp only [List.append_assoc]

/-- the attributes that are looked at: up to the first whose value can't be read -/
def attrsRead (as : List (Str × Str)) : List (Str × Str) := as.takeWhile (fun a => !attrUnreadable a) ++ (as.dropWhile (fun a => !attrUnreadable a)).take 1

theorem attrLoop_bad (ck uriPath : Str) (now : Option Rat) (add : AddNote) (ps : List Str) : ∀ (pre : List (Str × Str)) (seen : List Str) (attrs : Attrs),
    (∀ n, seen.contains n = pre.any (fun b => lower b.1 == n)) → (∃ p ∈ ps, attrUnreadable (attrOf p) = true) →
    (cookieAttrLoop ck uriPath now add ps seen attrs (pre.any (attrTooLong now))).res = .error .valueError ∧
    (cookieAttrLoop ck uriPath now add ps seen attrs (pre.any (attrTooLong now))).notes.map tag =
      ((attrsRead (ps.map attrOf)).zipIdx.flatMap fun p => attrNotes now (pre ++ (attrsRead (ps.map attrOf)).take p.2) p.1).map (·, add.subject) := by
  induction ps with
  | nil => intro _ _ _ _ h; simp at h
  | cons p ps ih =>
    intro pre seen attrs hs hu
    unfold cookieAttrLoop
    rw [splitAttr_eq]
    dsimp only
    have hd : Does (W.when (seen.contains (lower (attrOf p).1))
        (add.add .SET_COOKIE_ATTRIBUTE_DUP [(str "cookie_name", .str ck), (str "attribute", .str (attrOf p).1)])) add.subject
        (if pre.any (fun b => lower b.1 == lower (attrOf p).1) then [.SET_COOKIE_ATTRIBUTE_DUP] else []) () := by
      rw [← hs]; exact Does.when (Does.add1 _ _ _)
    rw [W.bind_ok hd.res]
    dsimp only
    rw [List.map_append, hd.notes]
    by_cases hp : attrUnreadable (attrOf p) = true
    · have hr : attrsRead ((p :: ps).map attrOf) = [attrOf p] := by
        unfold attrsRead
        rw [List.map_cons, List.takeWhile_cons_of_neg (by simp [hp]), List.dropWhile_cons_of_neg (by simp [hp])]
        rfl
      rw [hr]
      have hx : (processCookieAttribute (attrOf p).1 (attrOf p).2 ck attrs uriPath now add (pre.any (attrTooLong now))).res = .error .valueError ∧
          (processCookieAttribute (attrOf p).1 (attrOf p).2 ck attrs uriPath now add (pre.any (attrTooLong now))).notes.map tag =
            (attrProblems (attrOf p) ++ if attrTooLong now (attrOf p) && !pre.any (attrTooLong now) then [NoteId.SET_COOKIE_LIFETIME_TOO_LONG] else []).map (·, add.subject) := by
        unfold attrUnreadable attrIs at hp
        simp only [Bool.and_eq_true, beq_iff_eq] at hp
        obtain ⟨⟨h1, h2⟩, h3⟩ := hp
        have hne : (attrOf p).2 ≠ [] := by intro h; rw [h] at h2; exact nomatch h2
        have hn : pyInt (attrOf p).2 = none := by simpa using h3
        generalize attrOf p = a at *
        obtain ⟨nm, v⟩ := a
        dsimp only at *
        have e1 : attrProblems (nm, v) = if (v.head? == some 48 && decide (v.length > 1)) then [.SET_COOKIE_LEADING_ZERO_MAX_AGE] else [] := by
          cases v with
          | nil => exact absurd rfl hne
          | cons c v => simp [attrProblems, attrIs, h1, knownAttrs, h2]
        have e3 : attrTooLong now (nm, v) = false := by
          simp only [attrTooLong, attrIs, h1, hn]; simp
        unfold processCookieAttribute
        dsimp only
        have hw : Does (W.when (v.head? == some 48 && decide (v.length > 1)) (add.add .SET_COOKIE_LEADING_ZERO_MAX_AGE [(str "cookie_name", .str ck)]))
            add.subject (if (v.head? == some 48 && decide (v.length > 1)) then [.SET_COOKIE_LEADING_ZERO_MAX_AGE] else []) () := Does.when (Does.add1 _ _ _)
        rw [if_neg (by rw [h1]; decide), if_pos h1, if_neg hne, W.bind_ok hw.res]
        dsimp only
        rw [List.map_append, hw.notes, h2, hn, e1, e3]
        refine ⟨rfl, ?_⟩
        simp [W.throw]
      rw [W.bind_err hx.1]
      refine ⟨rfl, ?_⟩
      dsimp only
      rw [hx.2]
      rw [show ([attrOf p].zipIdx.flatMap fun q => attrNotes now (pre ++ [attrOf p].take q.2) q.1) = attrNotes now pre (attrOf p) by simp]
      unfold attrNotes
      simp only [List.append_assoc, List.map_append]
    · have hp' : attrUnreadable (attrOf p) = false := by simpa using hp
      have hr : attrsRead ((p :: ps).map attrOf) = attrOf p :: attrsRead (ps.map attrOf) := by
        unfold attrsRead
        rw [List.map_cons, List.takeWhile_cons_of_pos (by simp [hp']), List.dropWhile_cons_of_pos (by simp [hp'])]
        rfl
      have hst := attr_step (attrOf p) ck attrs uriPath now add (pre.any (attrTooLong now)) hp'
      rw [W.bind_ok hst.res, hr, zipIdx_flatMap_cons]
      dsimp only
      have hrec := ih (pre ++ [attrOf p]) (lower (attrOf p).1 :: seen) (attrs ++ (attrRecord uriPath (attrOf p)).toList) (by
        intro n
        rw [List.any_append, List.contains_cons, hs]
        simp only [List.any_cons, List.any_nil, Bool.or_false]
        rw [Bool.or_comm, Bool.beq_comm]) (by
        obtain ⟨q, hq, hqu⟩ := hu
        rcases List.mem_cons.1 hq with rfl | hq
        · exact absurd hqu hp
        · exact ⟨q, hq, hqu⟩)
      rw [List.any_append, List.any_cons, List.any_nil, Bool.or_false] at hrec
      refine ⟨hrec.1, ?_⟩
      rw [List.map_append, hst.notes, hrec.2, List.map_append]
      unfold attrNotes
      simp only [List.append_assoc, List.map_append]

/-! ### the whole cookie -/

/-- what the names of cookies with a prefix ask for (`attrs` are the recorded attributes) -/
def prefixProblems (name : Str) (attrs : Attrs) : List NoteId :=
  (if (str "__secure-").isPrefixOf (lower name) && !attrs.contains (str "Secure", .str []) then [.SET_COOKIE_PREFIX_SECURE_MISSING] else []) ++
  (if (str "__host-").isPrefixOf (lower name) then
    (if !attrs.contains (str "Secure", .str []) then [.SET_COOKIE_PREFIX_SECURE_MISSING] else []) ++
    (if !attrs.contains (str "Path", .str (str "/")) then [.SET_COOKIE_PREFIX_HOST_BAD_PATH] else []) ++
    ((attrs.filter fun p => p.1 == str "Domain").map fun _ => .SET_COOKIE_PREFIX_HOST_BAD_DOMAIN)
   else [])

/-- the notes for a cookie, in order -/
def cookieNoteList (now : Option Rat) (uriPath : Str) (s : Str) : List NoteId :=
  let attrs := (cookieAttrs s).filterMap (attrRecord uriPath)
  (if (cookieName s).length + (cookieValue s).length > 4096 then [.SET_COOKIE_TOO_LARGE] else []) ++
  (if (cookieValue s).length > 128 then [.SET_COOKIE_VALUE_TOO_LARGE] else []) ++
  allAttrNotes now (cookieAttrs s) ++
  (if attrs.contains (str "SameSite", .str (str "None")) && !attrs.contains (str "Secure", .str []) then [.SET_COOKIE_NOT_SECURE] else []) ++
  (if attrs.contains (str "Partitioned", .str []) && !attrs.contains (str "Secure", .str []) then [.SET_COOKIE_PARTITIONED_NO_SECURE] else []) ++
  prefixProblems (cookieName s) attrs

theorem hasStr_contains (attrs : Attrs) (k v : Str) : attrs.hasStr k v = attrs.contains (k, .str v) := by
  unfold Attrs.hasStr
  rw [List.contains_eq_any_beq]
  congr 1
  funext p
  show _ = ((k == p.1) && (Val.str v == p.2))
  rw [Bool.beq_comm (a := k), Bool.beq_comm (a := Val.str v)]

theorem secure_contains (attrs : Attrs) : attrs.secure = attrs.contains (str "Secure", .str []) := hasStr_contains ..

theorem checkPrefixes_does (name : Str) (attrs : Attrs) (add : AddNote) : Does (checkPrefixes name attrs add) add.subject (prefixProblems name attrs) () := by
  unfold checkPrefixes prefixProblems
  dsimp only
  rw [secure_contains, hasStr_contains]
  refine Does.seq (Does.when (Does.add1 _ _ _)) (Does.when ?_)
  refine (Does.seq (Does.when (Does.add1 _ _ _)) (Does.seq (Does.when (Does.add1 _ _ _)) (Does.forEach attrs (cs := fun p => if p.1 == str "Domain" then [.SET_COOKIE_PREFIX_HOST_BAD_DOMAIN] else [])
    fun p _ => Does.when (Does.add1 _ _ _)))).congr ?_
  rw [List.append_assoc]
  congr 2
  exact flatMap_ite_map ..

theorem splitSemi_eq (s : Str) : splitSemi s = (beforeC 59 s, afterC 59 s) := by
  unfold splitSemi beforeC afterC
  have e := split1_eq 59 s
  by_cases h : 59 ∈ s
  · rw [if_pos h] at e; rw [e]
  · rw [if_neg h] at e
    have h1 : s.takeWhile (· != 59) ++ s.dropWhile (· != 59) = s := List.takeWhile_append_dropWhile
    rw [takeWhile_none h] at h1
    have : (s.dropWhile (· != 59)) = [] := by simpa using h1
    rw [e, takeWhile_none h, this]; rfl

theorem splitCookie_eq (s : Str) : splitCookie s = (cookieName s, cookieValue s, afterC 59 s) := by
  unfold splitCookie cookieName cookieValue
  rw [splitSemi_eq]
  dsimp only
  have e := split1_eq 61 (beforeC 59 s)
  by_cases h : 61 ∈ beforeC 59 s
  · rw [if_pos h] at e; rw [e, if_pos h, if_pos h]; rfl
  · rw [if_neg h] at e; rw [e, if_neg h, if_neg h]

theorem cookieAttrs_eq (s : Str) : cookieAttrs s = (cookieAvs (afterC 59 s)).map attrOf := rfl

/-- a cookie with a name or a value, whose `Max-Age` can be read -/
def cookieReadable (s : Str) : Bool := !(cookieName s == [] && cookieValue s == []) && !(cookieAttrs s).any attrUnreadable

theorem looseParse_ok (s uriPath : Str) (now : Option Rat) (add : AddNote) (h : cookieReadable s = true) :
    Does (looseParse s uriPath now add) add.subject (cookieNoteList now uriPath s) (cookieName s, cookieValue s, (cookieAttrs s).filterMap (attrRecord uriPath)) := by
  unfold cookieReadable at h
  rw [Bool.and_eq_true] at h
  have h1 : ¬ (cookieName s = [] ∧ cookieValue s = []) := by
    intro hh; rw [hh.1, hh.2] at h; exact absurd h.1 (by simp)
  have h2 : ∀ p ∈ cookieAvs (afterC 59 s), attrUnreadable (attrOf p) = false := by
    intro p hp
    have h2 := h.2
    rw [cookieAttrs_eq] at h2
    simp only [Bool.not_eq_true', List.any_eq_false] at h2
    simpa using h2 (attrOf p) (List.mem_map.2 ⟨p, hp, rfl⟩)
  unfold looseParse
  rw [splitCookie_eq]
  dsimp only
  rw [if_neg h1]
  have hl := attrLoop (cookieName s) uriPath now add (cookieAvs (afterC 59 s)) [] [] [] (fun _ => rfl) h2
  simp only [List.nil_append] at hl
  rw [← cookieAttrs_eq] at hl
  have hlast := Does.seq (checkPrefixes_does (cookieName s) ((cookieAttrs s).filterMap (attrRecord uriPath)) add)
    (Does.pure (cookieName s, cookieValue s, (cookieAttrs s).filterMap (attrRecord uriPath)) add.subject)
  have hall := Does.seq (Does.when (c := decide ((cookieName s).length + (cookieValue s).length > 4096)) (Does.add1 add .SET_COOKIE_TOO_LARGE [(str "cookie_name", .str (cookieName s))]))
    (Does.seq (Does.when (c := decide ((cookieValue s).length > maxSetCookieValueLength)) (Does.add1 add .SET_COOKIE_VALUE_TOO_LARGE [(str "cookie_name", .str (cookieName s)),
        (str "set_cookie_value_length", .str (commaNum (cookieValue s).length ++ str " bytes"))]))
    (Does.bind (f := fun attrs : Attrs => do
      W.when (attrs.hasStr (str "SameSite") (str "None") && !attrs.secure) (add.add .SET_COOKIE_NOT_SECURE [(str "cookie_name", .str (cookieName s))])
      W.when (attrs.hasStr (str "Partitioned") [] && !attrs.secure) (add.add .SET_COOKIE_PARTITIONED_NO_SECURE [(str "cookie_name", .str (cookieName s))])
      checkPrefixes (cookieName s) attrs add
      return (cookieName s, cookieValue s, attrs)) hl
      (Does.seq (Does.when (Does.add1 _ _ _)) (Does.seq (Does.when (Does.add1 _ _ _)) hlast))))
  refine Does.congr hall ?_
  unfold cookieNoteList
  simp only [hasStr_contains, secure_contains, List.append_nil, decide_eq_true_eq, List.append_assoc]
  rfl

/-- the notes for any `Set-Cookie` line: none but one if the cookie is empty; those up to the attribute that can't be read if there is one -/
def cookieLineNotes (now : Option Rat) (uriPath : Str) (s : Str) : List NoteId :=
  if cookieName s = [] ∧ cookieValue s = [] then [.SET_COOKIE_NO_NAME]
  else if (cookieAttrs s).any attrUnreadable then
    (if (cookieName s).length + (cookieValue s).length > 4096 then [.SET_COOKIE_TOO_LARGE] else []) ++
    (if (cookieValue s).length > 128 then [.SET_COOKIE_VALUE_TOO_LARGE] else []) ++ allAttrNotes now (attrsRead (cookieAttrs s))
  else cookieNoteList now uriPath s

theorem looseParse_spec (s uriPath : Str) (now : Option Rat) (add : AddNote) :
    (looseParse s uriPath now add).res = (if cookieReadable s then .ok (cookieName s, cookieValue s, (cookieAttrs s).filterMap (attrRecord uriPath)) else .error .valueError) ∧
    (looseParse s uriPath now add).notes.map tag = (cookieLineNotes now uriPath s).map (·, add.subject) := by
  cases hr : cookieReadable s with
  | true =>
    have h := looseParse_ok s uriPath now add hr
    refine ⟨h.res, ?_⟩
    rw [h.notes]
    unfold cookieReadable at hr
    rw [Bool.and_eq_true] at hr
    unfold cookieLineNotes
    rw [if_neg, if_neg]
    · intro hh; rw [hh] at hr; exact absurd hr.2 (by simp)
    · intro hh; rw [hh.1, hh.2] at hr; exact absurd hr.1 (by simp)
  | false =>
    rw [if_neg (by simp)]
    unfold looseParse cookieLineNotes
    rw [splitCookie_eq]
    dsimp only
    by_cases h1 : cookieName s = [] ∧ cookieValue s = []
    · rw [if_pos h1, if_pos h1]
      exact ⟨rfl, rfl⟩
    · rw [if_neg h1, if_neg h1]
      have h0 : Does (W.when (decide ((cookieName s).length + (cookieValue s).length > 4096)) (add.add .SET_COOKIE_TOO_LARGE [(str "cookie_name", .str (cookieName s))])) add.subject _ () :=
        Does.when (Does.add1 _ _ _)
      have h0' : Does (W.when (decide ((cookieValue s).length > maxSetCookieValueLength)) (add.add .SET_COOKIE_VALUE_TOO_LARGE [(str "cookie_name", .str (cookieName s)),
        (str "set_cookie_value_length", .str (commaNum (cookieValue s).length ++ str " bytes"))])) add.subject _ () :=
        Does.when (Does.add1 _ _ _)
      unfold cookieReadable at hr
      have h3 : (cookieName s == [] && cookieValue s == []) = false := by
        rw [Bool.eq_false_iff]; intro hh; simp only [Bool.and_eq_true, beq_iff_eq] at hh; exact h1 hh
      rw [h3] at hr
      simp only [Bool.not_false, Bool.true_and, Bool.not_eq_false'] at hr
      rw [if_pos hr]
      have hl := attrLoop_bad (cookieName s) uriPath now add (cookieAvs (afterC 59 s)) [] [] [] (fun _ => rfl) (by
        obtain ⟨a, ha, hu⟩ := List.any_eq_true.1 hr
        rw [cookieAttrs_eq] at ha
        obtain ⟨p, hp, rfl⟩ := List.mem_map.1 ha
        exact ⟨p, hp, hu⟩)
      simp only [List.nil_append, ← cookieAttrs_eq, List.any_nil] at hl
      rw [W.bind_ok h0.res]
      dsimp only
      rw [W.bind_ok h0'.res]
      dsimp only
      rw [W.bind_err hl.1]
      refine ⟨rfl, ?_⟩
      dsimp only
      rw [List.map_append, List.map_append, h0.notes, h0'.notes]
      refine (congrArg (fun x => _ ++ (_ ++ x)) hl.2).trans ?_
      rw [List.map_append, List.map_append, List.append_assoc]
      simp only [decide_eq_true_eq]
      rfl

/-! ### in a section -/

section
variable {env : Env} {related : Option Msg} {t : Bool} {ls : List Line} {m m' : Msg}

/-- what a line is recorded as -/
def cookieRecord (uriPath : Str) (s : Str) : Option Val :=
  if cookieReadable s then some (.tuple [.str (cookieName s), .str (cookieValue s),
    .list (((cookieAttrs s).filterMap (attrRecord uriPath)).map fun p => .tuple [.str p.1, p.2])])
  else none

theorem set_cookie_parse_spec {c : Ctx} {u : UrlParts} (hu : c.env.urlsplit c.msg.baseUri = .ok u) (add : AddNote) (aux : Aux) (v : Str) :
    (set_cookie.parse c add aux v).1.notes.map tag = aux.notes.map tag ++ (cookieLineNotes c.msg.startTime u.path v).map (·, add.subject) ∧
    (set_cookie.parse c add aux v).2.notes = [] ∧
    (set_cookie.parse c add aux v).2.res = (match cookieRecord u.path v with | some x => .ok x | none => .error .valueError) := by
  unfold set_cookie.parse
  rw [hu]
  dsimp only
  obtain ⟨h1, h2⟩ := looseParse_spec v u.path c.msg.startTime add
  rw [List.map_append, h2, h1]
  refine ⟨rfl, rfl, ?_⟩
  unfold cookieRecord
  split <;> rfl

theorem brokenLoop_cookies {c : Ctx} {u : UrlParts} (hu : c.env.urlsplit c.msg.baseUri = .ok u) (rs : List (Str × Nat)) :
    ∀ (h : Handler) (acc : List Val), h.fid = .set_cookie_ →
      (h.brokenLoop c rs acc).1.aux.notes.map tag =
        h.aux.notes.map tag ++ rs.flatMap fun p => (cookieLineNotes c.msg.startTime u.path (strip p.1)).map (·, offsetSubject p.2) := by
  induction rs with
  | nil => intro h acc _; rw [List.flatMap_nil, List.append_nil]; rfl
  | cons r rs ih =>
    intro h acc hf
    obtain ⟨raw, o⟩ := r
    unfold Handler.brokenLoop
    dsimp only
    have hp : h.parse c (h.offsetAdd c.msg.defaults o) (strip raw) = set_cookie.parse c (h.offsetAdd c.msg.defaults o) h.aux (strip raw) := by
      unfold Handler.parse; rw [hf]
    obtain ⟨h1, h2, h3⟩ := set_cookie_parse_spec hu (h.offsetAdd c.msg.defaults o) h.aux (strip raw)
    rw [hp]
    generalize set_cookie.parse c (h.offsetAdd c.msg.defaults o) h.aux (strip raw) = q at *
    obtain ⟨aux, r⟩ := q
    dsimp only at *
    have h1' : aux.notes.map tag = h.aux.notes.map tag ++ (cookieLineNotes c.msg.startTime u.path (strip raw)).map (·, offsetSubject o) := h1
    cases hr : cookieRecord u.path (strip raw) with
    | some x =>
      rw [hr] at h3
      rw [h3]
      dsimp only
      rw [ih { h with aux } (acc ++ [x]) hf, List.flatMap_cons]
      show aux.notes.map tag ++ _ = _
      rw [h1', List.append_assoc]
    | none =>
      rw [hr] at h3
      rw [h3]
      dsimp only
      rw [if_pos (by rfl), ih { h with aux } acc hf, List.flatMap_cons]
      show aux.notes.map tag ++ _ = _
      rw [h1', List.append_assoc]

theorem during_same {c : Ctx} (hd : During env related t m c) : c.msg.baseUri = m.baseUri ∧ c.msg.startTime = m.startTime := by
  obtain ⟨ns, s, e⟩ := hd.ext
  rw [e]; cases t <;> exact ⟨rfl, rfl⟩

/-- what `evaluate` finds -/
theorem cookie_setup {c : Ctx} {n : Str} {u : UrlParts} (hu : env.urlsplit m.baseUri = .ok u) (hd : During env related t m c)
    (hn : n ∈ namesFor .set_cookie_ ls) :
    (evalSetup m t c related ls n).2.aux.notes.map tag =
      ((sent m.kind n ls).flatMap fun p => (cookieLineNotes m.startTime u.path (strip p.2)).map (·, offsetSubject p.1)) ∧
    (evalSetup m t c related ls n).2.value = .list ((valuesOf ls n).filterMap fun v => cookieRecord u.path (strip v)) ∧
    (evalSetup m t c related ls n).2.fid = .set_cookie_ := by
  obtain ⟨hn, hc⟩ := mem_namesFor.1 hn
  have hc' : classOf (spelling ls n) = .set_cookie_ := by rw [classOf_spelling hn, hc]
  have hk : (classOf (spelling ls n)).info.kind = .broken := by rw [hc']; rfl
  have haux : (mkHandler (classOf (spelling ls n)) (spelling ls n)).aux = {} := by unfold mkHandler; dsimp only; split <;> rfl
  obtain ⟨d1, d2⟩ := during_same hd
  have hu' : c.env.urlsplit c.msg.baseUri = .ok u := by rw [hd.env, d1, hu]
  have hfid := fed_id ⟨c.env, m, related⟩ (spelling ls n) (sent m.kind n ls)
  have hv := fed_broken (c := ⟨c.env, m, related⟩) hk (sent m.kind n ls)
  refine ⟨?_, ?_, by rw [evalSetup_fid hn, hc]⟩
  · unfold evalSetup evalHandler
    dsimp only
    rw [hk]
    dsimp only
    rw [brokenLoop_cookies hu' _ _ _ (by rw [hfid.fid, mkHandler_fid, hc']), d2]
    rw [hv]
    dsimp only
    rw [haux, List.flatMap_map]
    rfl
  · unfold evalSetup evalHandler
    dsimp only
    rw [hk]
    dsimp only
    rw [hc']
    unfold lineValue
    rw [show FieldId.set_cookie_.info.kind = .broken from rfl, sent_snd]
    dsimp only
    congr 2
    funext v
    have : parseText c .set_cookie_ (strip v) = (set_cookie.parse c ⟨[], [], []⟩ {} (strip v)).2.res := rfl
    rw [this, (set_cookie_parse_spec hu' _ _ _).2.2]
    cases cookieRecord u.path (strip v) <;> rfl

/-- **C59** the cookies that are recorded: for each line, in order, that has a name or a value (and whose `Max-Age`, if made of
digits, is a number), the name, the value and the attributes -/
theorem C59_cookies (P : Processed env related t ls m m') (hu : Unpadded ls) (hk : m.kind = .response) {u : UrlParts}
    (hurl : env.urlsplit m.baseUri = .ok u) {n : Str} (hn : n ∈ namesFor .set_cookie_ ls) :
    dget (m'.section t).parsed n = some (.list ((valuesOf ls n).filterMap fun v => cookieRecord u.path (strip v))) := by
  rw [P.recorded hu (f := .set_cookie_) (by decide) (by rw [hk]; rfl) (fun v => rfl) hn]
  congr 1
  have hd : During env related t m ⟨env, m, related⟩ := ⟨rfl, rfl, Ext.refl t m⟩
  have := (cookie_setup (t := t) hurl hd hn).2.1
  rw [evalSetup_value P.linting P.ok (mem_namesFor.1 hn).1 (by rw [okName_class (mem_namesFor.1 hn).2 (by decide), hk]; rfl) hd,
    (mem_namesFor.1 hn).2] at this
  exact this

theorem ofClass_subjects {X : NoteId} (ns : List Note) : (ofClass X ns).map (·.subject) = ((ns.map tag).filter (·.1 == X)).map (·.2) := by
  unfold ofClass
  rw [List.filter_map, List.map_map]
  rfl

theorem W_when_notes (c : Bool) (x : W Unit) : (W.when c x).notes = if c then x.notes else [] := by cases c <;> rfl

theorem set_cookie_evaluate_notes (add : AddNote) (h : Handler) (xs : List Val) (hv : h.value = .list xs) :
    (set_cookie.evaluate add h).notes.map tag =
      (if hasDups (xs.map fun x => (cookieOf x).1) then [(.SET_COOKIE_NAME_DUP, add.subject)] else []) ++
      (if (xs.any fun x => isHardened (cookieOf x).2.2) then [(.SET_COOKIE_HARDENED, add.subject)] else []) ++ h.aux.notes.map tag := by
  unfold set_cookie.evaluate
  rw [hv, W.bind_ok (a := xs) rfl]
  dsimp only
  have h0 : ∀ c : Bool, ∀ X vrs, (W.when c (add.add X vrs)).res = .ok () := by intro c X vrs; cases c <;> rfl
  rw [W.bind_ok (h0 _ _ _)]
  dsimp only
  rw [W.bind_ok (h0 _ _ _)]
  dsimp only
  show (([] : List Note) ++ _).map tag = _
  rw [List.nil_append, List.map_append, List.map_append, W_when_notes, W_when_notes, List.append_assoc, List.map_map]
  have e : (!(((xs.map cookieOf).filter fun ck => isHardened ck.2.2).map (·.1)).isEmpty) = xs.any fun x => isHardened (cookieOf x).2.2 := by
    rw [Bool.eq_iff_iff]
    simp only [Bool.not_eq_true', List.isEmpty_eq_false_iff, ne_eq, List.map_eq_nil_iff, List.filter_eq_nil_iff, List.any_eq_true]
    constructor
    · intro h
      apply Classical.byContradiction
      intro h2
      apply h
      intro a ha
      obtain ⟨x, hx, rfl⟩ := List.mem_map.1 ha
      exact fun h3 => h2 ⟨x, hx, h3⟩
    · rintro ⟨x, hx, hh⟩ h
      exact h (cookieOf x) (List.mem_map.2 ⟨x, hx, rfl⟩) hh
  rw [e]
  have e2 : ∀ (X : NoteId) (b : Bool) vrs, (if b = true then (add.add X vrs).notes else []).map tag = if b = true then [(X, add.subject)] else [] := by
    intro X b vrs; cases b <;> rfl
  rw [e2, e2]
  rfl

theorem cookie_eval {X : NoteId} (P : Processed env related t ls m m') (hX : EvalOnly X .set_cookie_) (hk : m.kind = .response) {u : UrlParts}
    (hurl : env.urlsplit m.baseUri = .ok u) :
    AddedAbout X m m' ((namesFor .set_cookie_ ls).flatMap fun n =>
      (((if hasDups (((valuesOf ls n).filterMap fun v => cookieRecord u.path (strip v)).map fun x => (cookieOf x).1) then [(NoteId.SET_COOKIE_NAME_DUP, fieldSubject n)] else []) ++
      (if (((valuesOf ls n).filterMap fun v => cookieRecord u.path (strip v)).any fun x => isHardened (cookieOf x).2.2) then [(NoteId.SET_COOKIE_HARDENED, fieldSubject n)] else []) ++
      ((sent m.kind n ls).flatMap fun p => (cookieLineNotes m.startTime u.path (strip p.2)).map (·, offsetSubject p.1))).filter (·.1 == X)).map (·.2)) := by
  obtain ⟨added, _, _, _, e, _⟩ := section_full P.linting P.new P.ok
  obtain ⟨c, hd, h⟩ := eval_full hX P.linting P.new P.ok e
  refine ⟨added, e, ?_⟩
  rw [h, if_pos (by rw [hk]; rfl), List.map_flatMap]
  apply flatMap_congr_mem
  intro n hn
  have hn' := (mem_namesFor.1 hn).1
  obtain ⟨a1, a2, a3⟩ := cookie_setup (t := t) hurl (hd n hn').1 hn
  have hsub := evalSetup_subject (t := t) (m := m) (related := related) (c := c n) hn'
  rw [ofClass_subjects]
  unfold evalNotes
  rw [if_neg (by rw [a2]; simp)]
  unfold Handler.evaluate
  rw [a3]
  show (((set_cookie.evaluate (evalSetup m t (c n) related ls n).1 (evalSetup m t (c n) related ls n).2).notes.map tag).filter _).map _ = _
  rw [set_cookie_evaluate_notes _ _ _ a2, hsub, a1]

/-- the `Set-Cookie` lines of a section: number and text -/
def cookieLines (kind : MsgKind) (ls : List Line) : List (Nat × Str) :=
  (namesFor .set_cookie_ ls).flatMap fun n => (sent kind n ls).map fun p => (p.1, strip p.2)

theorem cookie_class (X : NoteId) (h : X ∈ cookieNotes) : EvalOnly X .set_cookie_ ∧ X ≠ .SET_COOKIE_NAME_DUP ∧ X ≠ .SET_COOKIE_HARDENED := by
  unfold cookieNotes at h
  simp only [List.mem_cons, List.not_mem_nil, or_false] at h
  rcases h with rfl | rfl | rfl | rfl | rfl | rfl | rfl | rfl | rfl | rfl | rfl | rfl | rfl | rfl | rfl | rfl | rfl | rfl | rfl
  all_goals exact ⟨by own_only, by decide, by decide⟩

/-- **C60** (the notes on the lines) each class of note on a cookie is added as often, about each `Set-Cookie` line, as the
specification above has it -/
theorem C60_line_notes {X : NoteId} (P : Processed env related t ls m m') (hX : X ∈ cookieNotes) (hk : m.kind = .response) {u : UrlParts}
    (hurl : env.urlsplit m.baseUri = .ok u) :
    AddedAbout X m m' ((cookieLines m.kind ls).flatMap fun p =>
      List.replicate ((cookieLineNotes m.startTime u.path p.2).count X) (offsetSubject p.1)) := by
  obtain ⟨h1, h2, h3⟩ := cookie_class X hX
  have h := cookie_eval P h1 hk hurl
  refine h.congr ?_
  unfold cookieLines
  rw [List.flatMap_assoc]
  apply flatMap_congr_mem
  intro n _
  rw [List.filter_append, List.filter_append]
  have e : ∀ (b : Bool) (Y : NoteId) (s : Str), X ≠ Y → (if b then [(Y, s)] else []).filter (·.1 == X) = [] := by
    intro b Y s hne
    cases b
    · rfl
    · have : (Y == X) = false := by simpa using Ne.symm hne
      simp [this]
  rw [e _ _ _ h2, e _ _ _ h3, List.nil_append, List.nil_append, List.filter_flatMap, List.map_flatMap, List.flatMap_map]
  apply flatMap_congr_mem
  intro p _
  rw [tagged_filter, countOf_replicate]

theorem cookie_lines_cond {X : NoteId} (P : Processed env related t ls m m') (hX : X ∈ cookieNotes) (hk : m.kind = .response) {u : UrlParts}
    (hurl : env.urlsplit m.baseUri = .ok u) (q : Str → Bool) (h : ∀ s, (cookieLineNotes m.startTime u.path s).count X = if q s then 1 else 0) :
    AddedAbout X m m' (((cookieLines m.kind ls).filter fun p => q p.2).map fun p => offsetSubject p.1) := by
  refine (C60_line_notes P hX hk hurl).congr ?_
  rw [← flatMap_ite_map]
  apply flatMap_congr_mem
  intro p _
  rw [h]
  cases q p.2 <;> rfl

/-! ### the specification, class by class -/

/-- a cookie with neither name nor value -/
def cookieEmpty (s : Str) : Bool := cookieName s == [] && cookieValue s == []

theorem cookieEmpty_iff (s : Str) : cookieEmpty s = true ↔ cookieName s = [] ∧ cookieValue s = [] := by
  unfold cookieEmpty; simp only [Bool.and_eq_true, beq_iff_eq]

theorem count_ite {X Y : NoteId} (c : Prop) [Decidable c] : (if c then [Y] else []).count X = if c ∧ Y = X then 1 else 0 := by
  by_cases h : c
  · rw [if_pos h]
    by_cases h2 : Y = X
    · rw [if_pos ⟨h, h2⟩, h2]; simp
    · rw [if_neg (fun q => h2 q.2)]; simp [h2]
  · rw [if_neg h, if_neg (fun q => h q.1)]; rfl

theorem count_flatMap_zero {α} {X : NoteId} (l : List α) (f : α → List NoteId) (h : ∀ a, (f a).count X = 0) : (l.flatMap f).count X = 0 := by
  induction l with
  | nil => rfl
  | cons a l ih => rw [List.flatMap_cons, List.count_append, h, ih]

theorem count_flatMap_cond {α} {X : NoteId} (l : List α) (f : α → List NoteId) (q : α → Bool) (h : ∀ a, (f a).count X = if q a then 1 else 0) :
    (l.flatMap f).count X = (l.filter q).length := by
  induction l with
  | nil => rfl
  | cons a l ih =>
    rw [List.flatMap_cons, List.count_append, h, ih]
    cases hq : q a
    · rw [List.filter_cons_of_neg (by simp [hq])]; simp
    · rw [List.filter_cons_of_pos hq, List.length_cons, if_pos rfl, Nat.add_comm]

theorem attrsRead_all {as : List (Str × Str)} (h : as.any attrUnreadable = false) : attrsRead as = as := by
  unfold attrsRead
  rw [List.any_eq_false] at h
  have : ∀ a ∈ as, (!attrUnreadable a) = true := fun a ha => by simpa using h a ha
  have h2 : as.dropWhile (fun a => !attrUnreadable a) = [] := by
    clear h
    induction as with
    | nil => rfl
    | cons a as ih =>
      rw [List.dropWhile_cons, if_pos (this a (by simp))]
      exact ih fun b hb => this b (by simp [hb])
  have h3 : as.takeWhile (fun a => !attrUnreadable a) ++ as.dropWhile (fun a => !attrUnreadable a) = as := List.takeWhile_append_dropWhile
  rw [h2, List.append_nil] at h3
  rw [h2, h3]
  simp

/-- the notes that are about attributes -/
def attrClasses : List NoteId := [.SET_COOKIE_ATTRIBUTE_DUP, .SET_COOKIE_BAD_DATE, .SET_COOKIE_LIFETIME_TOO_LONG, .SET_COOKIE_EMPTY_MAX_AGE,
  .SET_COOKIE_LEADING_ZERO_MAX_AGE, .SET_COOKIE_NON_DIGIT_MAX_AGE, .SET_COOKIE_EMPTY_DOMAIN, .SET_COOKIE_UNKNOWN_ATTRIBUTE_VALUE, .SET_COOKIE_PRIORITY,
  .SET_COOKIE_VERSION, .SET_COOKIE_UNKNOWN_ATTRIBUTE]

theorem attrNotes_class (now : Option Rat) (before a) : ∀ x ∈ attrNotes now before a, x ∈ attrClasses := by
  unfold attrNotes attrProblems attrClasses
  intro x hx
  simp only [List.mem_append] at hx
  have e : ∀ (c : Bool) (Y : NoteId), x ∈ (if c then [Y] else []) → x = Y := by
    intro c Y h; cases c
    · exact absurd h (by simp)
    · simpa using h
  rcases hx with ((h | ((((((((h | h) | h) | h) | h) | h) | h) | h) | h)) | h)
  all_goals (rw [e _ _ h]; simp)

theorem allAttrNotes_class (now : Option Rat) (as) : ∀ x ∈ allAttrNotes now as, x ∈ attrClasses := by
  intro x hx
  unfold allAttrNotes at hx
  obtain ⟨p, _, h⟩ := List.mem_flatMap.1 hx
  exact attrNotes_class _ _ _ x h

theorem allAttrNotes_other {X : NoteId} (h : X ∉ attrClasses) (now : Option Rat) (as) : (allAttrNotes now as).count X = 0 := by
  rw [List.count_eq_zero]
  exact fun hx => h (allAttrNotes_class now as X hx)

theorem prefixProblems_class (name attrs) : ∀ x ∈ prefixProblems name attrs,
    x ∈ [NoteId.SET_COOKIE_PREFIX_SECURE_MISSING, .SET_COOKIE_PREFIX_HOST_BAD_PATH, .SET_COOKIE_PREFIX_HOST_BAD_DOMAIN] := by
  intro x hx
  unfold prefixProblems at hx
  have e : ∀ (c : Bool) (Y : NoteId), x ∈ (if c then [Y] else []) → x = Y := by
    intro c Y h; cases c
    · exact absurd h (by simp)
    · simpa using h
  rcases List.mem_append.1 hx with h | h
  · rw [e _ _ h]; simp
  · split at h
    · rcases List.mem_append.1 h with h | h
      · rcases List.mem_append.1 h with h | h
        · rw [e _ _ h]; simp
        · rw [e _ _ h]; simp
      · obtain ⟨_, _, rfl⟩ := List.mem_map.1 h
        simp
    · exact absurd h (by simp)

theorem cookieLineNotes_class (now : Option Rat) (uriPath s : Str) : ∀ x ∈ cookieLineNotes now uriPath s, x ∈ cookieNotes := by
  have hA : ∀ x ∈ attrClasses, x ∈ cookieNotes := by decide
  have hP : ∀ x ∈ [NoteId.SET_COOKIE_PREFIX_SECURE_MISSING, .SET_COOKIE_PREFIX_HOST_BAD_PATH, .SET_COOKIE_PREFIX_HOST_BAD_DOMAIN], x ∈ cookieNotes := by decide
  have e : ∀ (c : Prop) [Decidable c] (Y x : NoteId), Y ∈ cookieNotes → x ∈ (if c then [Y] else []) → x ∈ cookieNotes := by
    intro c _ Y x hY h
    split at h
    · rw [List.mem_singleton.1 h]; exact hY
    · exact absurd h (by simp)
  intro x hx
  unfold cookieLineNotes at hx
  split at hx
  · rw [List.mem_singleton.1 hx]; decide
  split at hx
  · rcases List.mem_append.1 hx with hx | hx
    · rcases List.mem_append.1 hx with hx | hx <;> exact e _ _ _ (by decide) hx
    · exact hA _ (allAttrNotes_class _ _ _ hx)
  · unfold cookieNoteList at hx
    dsimp only at hx
    simp only [List.mem_append] at hx
    rcases hx with ((((hx | hx) | hx) | hx) | hx) | hx
    · exact e _ _ _ (by decide) hx
    · exact e _ _ _ (by decide) hx
    · exact hA _ (allAttrNotes_class _ _ _ hx)
    · exact e _ _ _ (by decide) hx
    · exact e _ _ _ (by decide) hx
    · exact hP _ (prefixProblems_class _ _ _ hx)

/-- a note on the attributes of a line: as often as the specification of attributes has it, unless the cookie is empty -/
theorem lineNotes_attr {X : NoteId} (hX : X ∈ attrClasses) (now : Option Rat) (uriPath s : Str) :
    (cookieLineNotes now uriPath s).count X = if cookieEmpty s then 0 else (allAttrNotes now (attrsRead (cookieAttrs s))).count X := by
  have hp : ∀ name attrs, (prefixProblems name attrs).count X = 0 := by
    intro name attrs
    rw [List.count_eq_zero]
    intro h
    have := prefixProblems_class _ _ _ h
    simp only [attrClasses, List.mem_cons, List.not_mem_nil, or_false] at hX this
    rcases this with rfl | rfl | rfl <;> exact absurd hX (by decide)
  have hne : ∀ Y : NoteId, Y ∉ attrClasses → Y ≠ X := fun Y hY h => hY (h ▸ hX)
  unfold cookieLineNotes
  by_cases h : cookieName s = [] ∧ cookieValue s = []
  · rw [if_pos h, if_pos ((cookieEmpty_iff s).2 h)]
    simp only [List.count_singleton]
    rw [if_neg]
    have := hne .SET_COOKIE_NO_NAME (by decide)
    simpa using this
  · rw [if_neg h, if_neg (fun hh => h ((cookieEmpty_iff s).1 hh))]
    have z1 : ∀ (c : Prop) [Decidable c] (Y : NoteId), Y ∉ attrClasses → (if c then [Y] else []).count X = 0 := by
      intro c _ Y hY
      rw [count_ite, if_neg (fun q => hne Y hY q.2)]
    by_cases hu : (cookieAttrs s).any attrUnreadable = true
    · rw [if_pos hu]
      rw [List.count_append, List.count_append, z1 _ _ (by decide), z1 _ _ (by decide)]
      simp
    · have hu' : (cookieAttrs s).any attrUnreadable = false := by simpa using hu
      rw [if_neg hu, attrsRead_all hu']
      unfold cookieNoteList
      dsimp only
      rw [List.count_append, List.count_append, List.count_append, List.count_append, List.count_append, z1 _ _ (by decide), z1 _ _ (by decide),
        z1 _ _ (by decide), z1 _ _ (by decide), hp]
      simp

/-- a note that isn't on the attributes -/
theorem lineNotes_noName (now : Option Rat) (uriPath s : Str) :
    (cookieLineNotes now uriPath s).count .SET_COOKIE_NO_NAME = if cookieEmpty s then 1 else 0 := by
  have hp : ∀ name attrs, (prefixProblems name attrs).count .SET_COOKIE_NO_NAME = 0 := by
    intro name attrs
    rw [List.count_eq_zero]
    intro h
    exact absurd (prefixProblems_class _ _ _ h) (by decide)
  unfold cookieLineNotes
  by_cases h : cookieName s = [] ∧ cookieValue s = []
  · rw [if_pos h, if_pos ((cookieEmpty_iff s).2 h)]; rfl
  · rw [if_neg h, if_neg (fun hh => h ((cookieEmpty_iff s).1 hh))]
    by_cases hu : (cookieAttrs s).any attrUnreadable = true
    · rw [if_pos hu]
      simp only [List.count_append, count_ite, allAttrNotes_other (X := .SET_COOKIE_NO_NAME) (by decide)]
      simp
    · rw [if_neg hu]
      unfold cookieNoteList
      simp only [List.count_append, count_ite, allAttrNotes_other (X := .SET_COOKIE_NO_NAME) (by decide), hp]
      simp

/-- **C59** (empty cookies) a line with neither a name nor a value is reported, and no other is (and `C59_cookies` records nothing for it) -/
theorem C59_no_name (P : Processed env related t ls m m') (hk : m.kind = .response) {u : UrlParts} (hurl : env.urlsplit m.baseUri = .ok u) :
    AddedAbout .SET_COOKIE_NO_NAME m m' (((cookieLines m.kind ls).filter fun p => cookieEmpty p.2).map fun p => offsetSubject p.1) :=
  cookie_lines_cond P (by decide) hk hurl _ fun s => lineNotes_noName _ _ s

/-- **C59** an empty cookie isn't recorded -/
theorem C59_empty_not_recorded (uriPath s : Str) (h : cookieEmpty s = true) : cookieRecord uriPath s = none := by
  unfold cookieRecord cookieReadable
  unfold cookieEmpty at h
  rw [h]
  rfl

/-- **C59** without `=` before the first `;`, the name is empty and everything is the value -/
theorem C59_no_equals (s : Str) (h : 61 ∉ beforeC 59 s) : cookieName s = [] ∧ cookieValue s = strip (beforeC 59 s) := by
  unfold cookieName cookieValue
  rw [if_neg h, if_neg h]
  exact ⟨rfl, rfl⟩

/-- the attributes of a line that are looked at: all of them, if `Max-Age` is readable, none if the cookie is empty -/
def attrsSeen (s : Str) : List (Str × Str) := if cookieEmpty s then [] else attrsRead (cookieAttrs s)

theorem attr_cond {X : NoteId} (P : Processed env related t ls m m') (hX : X ∈ attrClasses) (hk : m.kind = .response) {u : UrlParts}
    (hurl : env.urlsplit m.baseUri = .ok u) (q : List (Str × Str) → Str × Str → Bool)
    (h : ∀ before a, (attrNotes m.startTime before a).count X = if q before a then 1 else 0) :
    AddedAbout X m m' ((cookieLines m.kind ls).flatMap fun p =>
      List.replicate (((attrsSeen p.2).zipIdx.filter fun a => q ((attrsSeen p.2).take a.2) a.1).length) (offsetSubject p.1)) := by
  have hX' : X ∈ cookieNotes := by
    simp only [attrClasses, List.mem_cons, List.not_mem_nil, or_false] at hX
    rcases hX with rfl | rfl | rfl | rfl | rfl | rfl | rfl | rfl | rfl | rfl | rfl <;> decide
  refine (C60_line_notes P hX' hk hurl).congr ?_
  apply flatMap_congr_mem
  intro p _
  congr 1
  rw [lineNotes_attr hX]
  unfold attrsSeen
  cases cookieEmpty p.2 with
  | true => rfl
  | false =>
    simp only [Bool.false_eq_true, if_false]
    exact count_flatMap_cond _ _ (fun a : (Str × Str) × Nat => q ((attrsRead (cookieAttrs p.2)).take a.2) a.1) fun a => h _ _

/-- **C60** (repeated attributes) one note for each attribute whose name, whatever its case, has been used before in the line -/
theorem C60_repeated (P : Processed env related t ls m m') (hk : m.kind = .response) {u : UrlParts} (hurl : env.urlsplit m.baseUri = .ok u) :
    AddedAbout .SET_COOKIE_ATTRIBUTE_DUP m m' ((cookieLines m.kind ls).flatMap fun p => List.replicate
      (((attrsSeen p.2).zipIdx.filter fun a => ((attrsSeen p.2).take a.2).any fun b => lower b.1 == lower a.1.1).length) (offsetSubject p.1)) :=
  attr_cond P (by decide) hk hurl (fun before a => before.any fun b => lower b.1 == lower a.1) (by
    intro before a
    unfold attrNotes attrProblems
    simp only [List.count_append, count_ite]
    simp only [reduceCtorEq, and_false, and_true, if_false, Nat.add_zero, Nat.zero_add])

/-- **C60** (unrecognised attributes) one note for each attribute whose name, whatever its case, isn't known -/
theorem C60_unrecognised (P : Processed env related t ls m m') (hk : m.kind = .response) {u : UrlParts} (hurl : env.urlsplit m.baseUri = .ok u) :
    AddedAbout .SET_COOKIE_UNKNOWN_ATTRIBUTE m m' ((cookieLines m.kind ls).flatMap fun p => List.replicate
      (((attrsSeen p.2).zipIdx.filter fun a => !knownAttrs.contains (lower a.1.1)).length) (offsetSubject p.1)) :=
  attr_cond P (by decide) hk hurl (fun _ a => !knownAttrs.contains (lower a.1)) (by
    intro before a
    unfold attrNotes attrProblems
    simp only [List.count_append, count_ite]
    simp only [reduceCtorEq, and_false, and_true, if_false, Nat.add_zero, Nat.zero_add])

/-- **C60** (bad dates) -/
theorem C60_bad_date (P : Processed env related t ls m m') (hk : m.kind = .response) {u : UrlParts} (hurl : env.urlsplit m.baseUri = .ok u) :
    AddedAbout .SET_COOKIE_BAD_DATE m m' ((cookieLines m.kind ls).flatMap fun p => List.replicate
      (((attrsSeen p.2).zipIdx.filter fun a => attrIs a.1 (str "expires") && (looseDateParse a.1.2).toOption.isNone).length) (offsetSubject p.1)) :=
  attr_cond P (by decide) hk hurl (fun _ a => attrIs a (str "expires") && (looseDateParse a.2).toOption.isNone) (by
    intro before a
    unfold attrNotes attrProblems
    simp only [List.count_append, count_ite]
    simp only [reduceCtorEq, and_false, and_true, if_false, Nat.add_zero, Nat.zero_add])

/-- **C60** (lifetime) reported once per line, for the first attribute that asks for more than 400 days -/
theorem C60_too_long (P : Processed env related t ls m m') (hk : m.kind = .response) {u : UrlParts} (hurl : env.urlsplit m.baseUri = .ok u) :
    AddedAbout .SET_COOKIE_LIFETIME_TOO_LONG m m' (((cookieLines m.kind ls).filter fun p => (attrsSeen p.2).any (attrTooLong m.startTime)).map
      fun p => offsetSubject p.1) := by
  refine (attr_cond P (X := .SET_COOKIE_LIFETIME_TOO_LONG) (by decide) hk hurl (fun before a => attrTooLong m.startTime a && !before.any (attrTooLong m.startTime)) (by
    intro before a
    unfold attrNotes attrProblems
    simp only [List.count_append, count_ite]
    simp only [reduceCtorEq, and_false, and_true, if_false, Nat.add_zero, Nat.zero_add])).congr ?_
  rw [← flatMap_ite_map]
  apply flatMap_congr_mem
  intro p _
  generalize attrsSeen p.2 = as
  have key : ∀ (q : Str × Str → Bool) (as pre : List (Str × Str)),
      ((as.zipIdx).filter fun a => q a.1 && !(pre ++ as.take a.2).any q).length = if as.any q && !pre.any q then 1 else 0 := by
    intro q as
    have e : ∀ (l : List ((Str × Str) × Nat)) (f : (Str × Str) × Nat → Bool), (l.filter f).length = (l.flatMap fun a => if f a then [()] else []).length := by
      intro l f
      rw [flatMap_ite_map, List.length_map]
    induction as with
    | nil => intro pre; rfl
    | cons a as ih =>
      intro pre
      have ih := ih (pre ++ [a])
      rw [e] at ih ⊢
      rw [zipIdx_flatMap_cons (fun before b => if q b && !before.any q then [()] else []), List.length_append, ih, List.any_append]
      simp only [List.any_cons, List.any_nil, Bool.or_false]
      by_cases h1 : q a = true <;> by_cases h2 : pre.any q = true <;> by_cases h3 : as.any q = true <;>
        simp [h1, h2, h3]
  have k2 := key (attrTooLong m.startTime) as []
  simp only [List.nil_append, List.any_nil, Bool.not_false, Bool.and_true] at k2
  rw [k2]
  cases as.any (attrTooLong m.startTime) <;> rfl

/-! ### prefixes -/

/-- does a line have an attribute of this name (in lower case)? -/
def hasAttr (name s : Str) : Bool := (cookieAttrs s).any (attrIs · name)
/-- the paths a line gives, in order; one that doesn't start with `/` stands for the default path -/
def pathsOf (uriPath s : Str) : List Str := ((cookieAttrs s).filter (attrIs · (str "path"))).map fun a => cookiePath uriPath a.2
/-- how many domains a line gives -/
def domainCount (s : Str) : Nat := ((cookieAttrs s).filter fun a => attrIs a (str "domain") && !a.2.isEmpty).length
/-- does the name of a cookie start so, whatever the case? -/
def nameStarts (pre s : Str) : Bool := pre.isPrefixOf (lower (cookieName s))

/-- the name a known attribute is recorded under says which one it is -/
theorem attrRecord_name {uriPath a k v} (h : attrRecord uriPath a = some (k, v)) : lower a.1 = lower k := by
  unfold attrRecord at h
  have key : ∀ (name : Str), attrIs a name = true → lower a.1 = name := by intro name h; unfold attrIs at h; simpa using h
  split at h
  · rename_i hc
    rw [Option.map_eq_some_iff] at h
    obtain ⟨_, _, e⟩ := h; rw [← (Prod.mk.inj e).1, key _ hc]; decide
  split at h
  · rename_i hc
    split at h
    · rw [Option.map_eq_some_iff] at h
      obtain ⟨_, _, e⟩ := h; rw [← (Prod.mk.inj e).1, key _ hc]; decide
    · exact nomatch h
  split at h
  · rename_i hc
    split at h
    · exact nomatch h
    · rw [← (Prod.mk.inj (Option.some.inj h)).1, key _ hc]; decide
  iterate 3
    split at h
    · rename_i hc
      rw [← (Prod.mk.inj (Option.some.inj h)).1, key _ hc]; decide
  split at h
  · rename_i hc
    split at h
    · rw [← (Prod.mk.inj (Option.some.inj h)).1, key _ hc]; decide
    split at h
    · rw [← (Prod.mk.inj (Option.some.inj h)).1, key _ hc]; decide
    split at h
    · rw [← (Prod.mk.inj (Option.some.inj h)).1, key _ hc]; decide
    · exact nomatch h
  split at h
  · rename_i hc
    rw [← (Prod.mk.inj (Option.some.inj h)).1, key _ hc]; decide
  · exact nomatch h

theorem record_secure {uriPath a} (h : lower a.1 = str "secure") : attrRecord uriPath a = some (str "Secure", .str []) := by
  unfold attrRecord attrIs; simp [h]
theorem record_path {uriPath a} (h : lower a.1 = str "path") : attrRecord uriPath a = some (str "Path", .str (cookiePath uriPath a.2)) := by
  unfold attrRecord attrIs; simp [h]
theorem record_domain {uriPath a} (h : lower a.1 = str "domain") :
    attrRecord uriPath a = if a.2 = [] then none else some (str "Domain", .str (if a.2.head? = some 46 then a.2.tail else a.2)) := by
  unfold attrRecord attrIs; simp [h]

theorem recorded_secure (uriPath s : Str) : ((cookieAttrs s).filterMap (attrRecord uriPath)).contains (str "Secure", .str []) = hasAttr (str "secure") s := by
  rw [Bool.eq_iff_iff, List.contains_iff_mem, List.mem_filterMap]
  unfold hasAttr
  rw [List.any_eq_true]
  constructor
  · rintro ⟨a, ha, h⟩
    exact ⟨a, ha, by unfold attrIs; rw [attrRecord_name h]; decide⟩
  · rintro ⟨a, ha, h⟩
    exact ⟨a, ha, record_secure (by unfold attrIs at h; simpa using h)⟩

theorem recorded_path (uriPath s : Str) : ((cookieAttrs s).filterMap (attrRecord uriPath)).contains (str "Path", .str (str "/")) = (pathsOf uriPath s).contains (str "/") := by
  rw [Bool.eq_iff_iff, List.contains_iff_mem, List.contains_iff_mem, List.mem_filterMap]
  unfold pathsOf
  rw [List.mem_map]
  constructor
  · rintro ⟨a, ha, h⟩
    have hn : lower a.1 = str "path" := by rw [attrRecord_name h]; decide
    refine ⟨a, List.mem_filter.2 ⟨ha, by unfold attrIs; rw [hn]; decide⟩, ?_⟩
    rw [record_path hn] at h
    have := (Prod.mk.inj (Option.some.inj h)).2
    injection this with this
    injection this
  · rintro ⟨a, ha, h⟩
    obtain ⟨ha, hn⟩ := List.mem_filter.1 ha
    exact ⟨a, ha, by rw [record_path (by unfold attrIs at hn; simpa using hn), h]⟩

theorem recorded_domains (uriPath s : Str) :
    (((cookieAttrs s).filterMap (attrRecord uriPath)).filter fun p => p.1 == str "Domain").length = domainCount s := by
  unfold domainCount
  induction cookieAttrs s with
  | nil => rfl
  | cons a as ih =>
    by_cases hn : lower a.1 = str "domain"
    · rw [List.filterMap_cons, record_domain hn]
      have hi : attrIs a (str "domain") = true := by unfold attrIs; rw [hn]; decide
      by_cases he : a.2 = []
      · rw [if_pos he, List.filter_cons_of_neg (by simp [he])]
        exact ih
      · rw [if_neg he]
        dsimp only
        rw [List.filter_cons_of_pos (by simp), List.filter_cons_of_pos (by simp [he, hi]), List.length_cons, List.length_cons, ih]
    · have hi : attrIs a (str "domain") = false := by unfold attrIs; simpa using hn
      rw [List.filter_cons_of_neg (by simp [hi]), ← ih, List.filterMap_cons]
      cases h : attrRecord uriPath a with
      | none => rfl
      | some p =>
        obtain ⟨k, v⟩ := p
        dsimp only
        rw [List.filter_cons_of_neg]
        intro hk
        rw [beq_iff_eq] at hk
        apply hn
        rw [attrRecord_name h, show k = str "Domain" from hk]
        decide

theorem prefixes_disjoint (x : Str) : ¬ ((str "__secure-").isPrefixOf x = true ∧ (str "__host-").isPrefixOf x = true) := by
  rintro ⟨h1, h2⟩
  rw [List.isPrefixOf_iff_prefix] at h1 h2
  obtain ⟨a, ha⟩ := h1
  obtain ⟨b, hb⟩ := h2
  have := ha.trans hb.symm
  simp at this

theorem lineNotes_prefix {X : NoteId} (hX : X ∈ [NoteId.SET_COOKIE_PREFIX_SECURE_MISSING, .SET_COOKIE_PREFIX_HOST_BAD_PATH, .SET_COOKIE_PREFIX_HOST_BAD_DOMAIN])
    (now : Option Rat) (uriPath s : Str) :
    (cookieLineNotes now uriPath s).count X =
      if cookieReadable s then (prefixProblems (cookieName s) ((cookieAttrs s).filterMap (attrRecord uriPath))).count X else 0 := by
  have hA : X ∉ attrClasses := by
    simp only [List.mem_cons, List.not_mem_nil, or_false] at hX
    rcases hX with rfl | rfl | rfl <;> decide
  have hne : ∀ Y : NoteId, Y ∉ [NoteId.SET_COOKIE_PREFIX_SECURE_MISSING, .SET_COOKIE_PREFIX_HOST_BAD_PATH, .SET_COOKIE_PREFIX_HOST_BAD_DOMAIN] → Y ≠ X :=
    fun Y hY h => hY (h ▸ hX)
  have z1 : ∀ (c : Prop) [Decidable c] (Y : NoteId), Y ∉ [NoteId.SET_COOKIE_PREFIX_SECURE_MISSING, .SET_COOKIE_PREFIX_HOST_BAD_PATH, .SET_COOKIE_PREFIX_HOST_BAD_DOMAIN] →
      (if c then [Y] else []).count X = 0 := by
    intro c _ Y hY
    rw [count_ite, if_neg (fun q => hne Y hY q.2)]
  unfold cookieLineNotes cookieReadable
  by_cases h : cookieName s = [] ∧ cookieValue s = []
  · rw [if_pos h, h.1, h.2, if_neg (by simp)]
    have := hne .SET_COOKIE_NO_NAME (by decide)
    simp [this]
  · have he : (cookieName s == [] && cookieValue s == []) = false := by
      rw [Bool.eq_false_iff]; intro hh; simp only [Bool.and_eq_true, beq_iff_eq] at hh; exact h hh
    rw [if_neg h, he]
    cases hu : (cookieAttrs s).any attrUnreadable with
    | true =>
      rw [if_pos (c := true = true) rfl, if_neg (c := (!false && !true) = true) (by simp), List.count_append, List.count_append, z1 _ _ (by decide), z1 _ _ (by decide), allAttrNotes_other hA]
    | false =>
      rw [if_neg (c := false = true) (by simp), if_pos (c := (!false && !false) = true) (by simp)]
      unfold cookieNoteList
      dsimp only
      rw [List.count_append, List.count_append, List.count_append, List.count_append, List.count_append, z1 _ _ (by decide), z1 _ _ (by decide),
        z1 _ _ (by decide), z1 _ _ (by decide), allAttrNotes_other hA]
      simp

/-- **C61** (`Secure`) a cookie whose name starts with `__Secure-` or `__Host-`, in any case, and that doesn't have `Secure` is
reported; no other is -/
theorem C61_secure (P : Processed env related t ls m m') (hk : m.kind = .response) {u : UrlParts} (hurl : env.urlsplit m.baseUri = .ok u) :
    AddedAbout .SET_COOKIE_PREFIX_SECURE_MISSING m m' (((cookieLines m.kind ls).filter fun p =>
      cookieReadable p.2 && (nameStarts (str "__secure-") p.2 || nameStarts (str "__host-") p.2) && !hasAttr (str "secure") p.2).map fun p => offsetSubject p.1) := by
  refine cookie_lines_cond P (by decide) hk hurl (fun s => cookieReadable s && (nameStarts (str "__secure-") s || nameStarts (str "__host-") s) && !hasAttr (str "secure") s) ?_
  intro s
  rw [lineNotes_prefix (by simp)]
  cases cookieReadable s with
  | false => rfl
  | true =>
    rw [if_pos rfl]
    unfold prefixProblems
    rw [recorded_secure]
    have hd := prefixes_disjoint (lower (cookieName s))
    unfold nameStarts
    have z : ∀ (l : Attrs), (l.map fun _ => NoteId.SET_COOKIE_PREFIX_HOST_BAD_DOMAIN).count .SET_COOKIE_PREFIX_SECURE_MISSING = 0 := by
      intro l; rw [List.count_eq_zero]; simp
    cases h1 : (str "__secure-").isPrefixOf (lower (cookieName s)) <;> cases h2 : (str "__host-").isPrefixOf (lower (cookieName s))
    · simp
    · simp only [Bool.false_and, Bool.false_or, Bool.true_and, List.count_append, count_ite, z, if_true]
      simp
    · simp only [Bool.true_and, Bool.or_false, List.count_append, count_ite]
      simp
    · exact absurd ⟨h1, h2⟩ hd

/-- **C61** (`Domain`) a `__Host-` cookie is reported for each `Domain` it has -/
theorem C61_domain (P : Processed env related t ls m m') (hk : m.kind = .response) {u : UrlParts} (hurl : env.urlsplit m.baseUri = .ok u) :
    AddedAbout .SET_COOKIE_PREFIX_HOST_BAD_DOMAIN m m' ((cookieLines m.kind ls).flatMap fun p =>
      List.replicate (if cookieReadable p.2 && nameStarts (str "__host-") p.2 then domainCount p.2 else 0) (offsetSubject p.1)) := by
  refine (C60_line_notes P (by decide) hk hurl).congr ?_
  apply flatMap_congr_mem
  intro p _
  congr 1
  rw [lineNotes_prefix (by simp)]
  cases cookieReadable p.2 with
  | false => rfl
  | true =>
    rw [if_pos rfl]
    unfold prefixProblems nameStarts
    have z : ∀ (l : Attrs), (l.map fun _ => NoteId.SET_COOKIE_PREFIX_HOST_BAD_DOMAIN).count .SET_COOKIE_PREFIX_HOST_BAD_DOMAIN = l.length := by
      intro l; rw [List.map_const', List.count_replicate_self]
    cases h2 : (str "__host-").isPrefixOf (lower (cookieName p.2))
    · simp [List.count_append, count_ite]
    · simp only [List.count_append, count_ite, z, if_true, recorded_domains]
      simp

theorem bad_path (P : Processed env related t ls m m') (hk : m.kind = .response) {u : UrlParts} (hurl : env.urlsplit m.baseUri = .ok u) :
    AddedAbout .SET_COOKIE_PREFIX_HOST_BAD_PATH m m' (((cookieLines m.kind ls).filter fun p =>
      cookieReadable p.2 && nameStarts (str "__host-") p.2 && !(pathsOf u.path p.2).contains (str "/")).map fun p => offsetSubject p.1) := by
  refine cookie_lines_cond P (by decide) hk hurl (fun s => cookieReadable s && nameStarts (str "__host-") s && !(pathsOf u.path s).contains (str "/")) ?_
  intro s
  rw [lineNotes_prefix (by simp)]
  cases cookieReadable s with
  | false => rfl
  | true =>
    rw [if_pos rfl]
    unfold prefixProblems
    rw [recorded_path]
    unfold nameStarts
    have z : ∀ (l : Attrs), (l.map fun _ => NoteId.SET_COOKIE_PREFIX_HOST_BAD_DOMAIN).count .SET_COOKIE_PREFIX_HOST_BAD_PATH = 0 := by
      intro l; rw [List.count_eq_zero]; simp
    cases h2 : (str "__host-").isPrefixOf (lower (cookieName s))
    · simp [List.count_append, count_ite]
    · simp only [List.count_append, count_ite, z, if_true, Bool.true_and]
      simp

/-- **C61** (`Path`) a `__Host-` cookie is reported exactly when its path - the last it gives, if any - isn't `/`.

Partial: of lines that give at most one path. See `C61_path_fails` for what happens otherwise. -/
theorem C61_path_partial (P : Processed env related t ls m m') (hk : m.kind = .response) {u : UrlParts} (hurl : env.urlsplit m.baseUri = .ok u)
    (hone : ∀ p ∈ cookieLines m.kind ls, (pathsOf u.path p.2).length ≤ 1) :
    AddedAbout .SET_COOKIE_PREFIX_HOST_BAD_PATH m m' (((cookieLines m.kind ls).filter fun p =>
      cookieReadable p.2 && nameStarts (str "__host-") p.2 && !((pathsOf u.path p.2).getLast? == some (str "/"))).map fun p => offsetSubject p.1) := by
  refine (bad_path P hk hurl).congr ?_
  congr 1
  apply filter_congr_mem
  intro p hp
  congr 2
  have := hone p hp
  generalize pathsOf u.path p.2 = l at *
  match l, this with
  | [], _ => rfl
  | [x], _ =>
    rw [Bool.eq_iff_iff]
    simp
    exact eq_comm
  | _ :: _ :: _, h => exact absurd h (by simp)

/-- **C60** (repeated cookies) -/
theorem C60_cookie_repeated (P : Processed env related t ls m m') (hk : m.kind = .response) {u : UrlParts} (hurl : env.urlsplit m.baseUri = .ok u) :
    AddedAbout .SET_COOKIE_NAME_DUP m m' (((namesFor .set_cookie_ ls).filter fun n =>
      hasDups ((((valuesOf ls n).map strip).filter cookieReadable).map cookieName)).map fieldSubject) := by
  refine (cookie_eval P (X := .SET_COOKIE_NAME_DUP) (by own_only) hk hurl).congr ?_
  rw [← flatMap_ite_map]
  apply flatMap_congr_mem
  intro n _
  have e : ((valuesOf ls n).filterMap fun v => cookieRecord u.path (strip v)).map (fun x => (cookieOf x).1) = ((((valuesOf ls n).map strip).filter cookieReadable).map cookieName) := by
    induction valuesOf ls n with
    | nil => rfl
    | cons v vs ih =>
      rw [List.filterMap_cons, List.map_cons]
      cases h : cookieReadable (strip v)
      · rw [List.filter_cons_of_neg (by simp [h]), show cookieRecord u.path (strip v) = none by unfold cookieRecord; rw [h]; rfl]
        exact ih
      · rw [List.filter_cons_of_pos h, List.map_cons, ← ih, cookieRecord, if_pos h]
        rfl
  rw [e]
  have z : ∀ (b : Bool) (s : Str), ((if b then [(NoteId.SET_COOKIE_HARDENED, s)] else []).filter fun p => p.1 == .SET_COOKIE_NAME_DUP) = [] := by
    intro b s; cases b <;> rfl
  have z2 : (((sent m.kind n ls).flatMap fun p => (cookieLineNotes m.startTime u.path (strip p.2)).map (·, offsetSubject p.1)).filter fun p => p.1 == NoteId.SET_COOKIE_NAME_DUP) = [] := by
    rw [List.filter_eq_nil_iff]
    intro x hx
    obtain ⟨p, _, hx⟩ := List.mem_flatMap.1 hx
    obtain ⟨y, hy, rfl⟩ := List.mem_map.1 hx
    intro hc
    have hc : y = .SET_COOKIE_NAME_DUP := by simpa using hc
    subst hc
    exact absurd (cookieLineNotes_class _ _ _ _ hy) (by decide)
  rw [List.filter_append, List.filter_append, z, z2]
  cases hasDups ((((valuesOf ls n).map strip).filter cookieReadable).map cookieName) <;> rfl


/-- the flags and `SameSite` of a hardened cookie: `Secure`, `HttpOnly` and `SameSite` that is `Strict` or `Lax` (or says nothing) -/
def hardened (s : Str) : Bool :=
  hasAttr (str "secure") s && hasAttr (str "httponly") s &&
    (cookieAttrs s).any fun a => attrIs a (str "samesite") && [str "strict", str "lax", []].contains (lower a.2)

theorem record_httponly {uriPath a} (h : lower a.1 = str "httponly") : attrRecord uriPath a = some (str "HttpOnly", .str []) := by
  unfold attrRecord attrIs; simp [h]
theorem record_samesite {uriPath a} (h : lower a.1 = str "samesite") : attrRecord uriPath a =
    (if lower a.2 = str "strict" then some (str "SameSite", .str (str "Strict"))
     else if lower a.2 = str "none" then some (str "SameSite", .str (str "None"))
     else if lower a.2 = str "lax" ∨ a.2 = [] then some (str "SameSite", .str (str "Lax"))
     else none) := by
  unfold attrRecord attrIs; simp [h]

theorem recorded_httponly (uriPath s : Str) : ((cookieAttrs s).filterMap (attrRecord uriPath)).contains (str "HttpOnly", .str []) = hasAttr (str "httponly") s := by
  rw [Bool.eq_iff_iff, List.contains_iff_mem, List.mem_filterMap]
  unfold hasAttr
  rw [List.any_eq_true]
  constructor
  · rintro ⟨a, ha, h⟩
    exact ⟨a, ha, by unfold attrIs; rw [attrRecord_name h]; decide⟩
  · rintro ⟨a, ha, h⟩
    exact ⟨a, ha, record_httponly (by unfold attrIs at h; simpa using h)⟩

theorem recorded_samesite (uriPath s : Str) :
    (((cookieAttrs s).filterMap (attrRecord uriPath)).contains (str "SameSite", .str (str "Strict")) ||
      ((cookieAttrs s).filterMap (attrRecord uriPath)).contains (str "SameSite", .str (str "Lax"))) =
    (cookieAttrs s).any fun a => attrIs a (str "samesite") && [str "strict", str "lax", []].contains (lower a.2) := by
  rw [Bool.eq_iff_iff, Bool.or_eq_true, List.contains_iff_mem, List.contains_iff_mem, List.mem_filterMap, List.mem_filterMap, List.any_eq_true]
  constructor
  · rintro (⟨a, ha, h⟩ | ⟨a, ha, h⟩)
    all_goals
      have hn : lower a.1 = str "samesite" := by rw [attrRecord_name h]; decide
      refine ⟨a, ha, ?_⟩
      rw [record_samesite hn] at h
      unfold attrIs
      rw [hn]
      split at h
      · rename_i hs; rw [hs]; decide
      split at h
      · exact absurd h (by decide)
      split at h
      · rename_i hs
        rcases hs with hs | hs
        · rw [hs]; decide
        · rw [hs]; decide
      · exact nomatch h
  · rintro ⟨a, ha, h⟩
    rw [Bool.and_eq_true] at h
    have hn : lower a.1 = str "samesite" := by have := h.1; unfold attrIs at this; simpa using this
    have hv := h.2
    simp only [List.contains_iff_mem, List.mem_cons, List.not_mem_nil, or_false] at hv
    rcases hv with hv | hv | hv
    · left
      refine ⟨a, ha, ?_⟩
      rw [record_samesite hn, if_pos hv]
    · right
      refine ⟨a, ha, ?_⟩
      rw [record_samesite hn, hv, if_neg (by decide), if_neg (by decide), if_pos (Or.inl rfl)]
    · right
      refine ⟨a, ha, ?_⟩
      rw [record_samesite hn, lower_ne_nil.1 hv]; decide

theorem hardened_eq (uriPath s : Str) : isHardened ((cookieAttrs s).filterMap (attrRecord uriPath)) = hardened s := by
  unfold isHardened hardened
  rw [secure_contains, hasStr_contains, hasStr_contains, hasStr_contains, recorded_secure, recorded_httponly, recorded_samesite]

theorem attrs_roundtrip (as : Attrs) : (as.map fun p => Val.tuple [.str p.1, p.2]).filterMap (fun a => match a with
    | .tuple [.str k, y] => some (k, y)
    | _ => none) = as := by
  induction as with
  | nil => rfl
  | cons a as ih => rw [List.map_cons, List.filterMap_cons]; dsimp only; rw [ih]

/-- **C60** (hardened cookies) praised when at least one of the recorded cookies is hardened -/
theorem C60_hardened (P : Processed env related t ls m m') (hk : m.kind = .response) {u : UrlParts} (hurl : env.urlsplit m.baseUri = .ok u) :
    AddedAbout .SET_COOKIE_HARDENED m m' (((namesFor .set_cookie_ ls).filter fun n =>
      ((valuesOf ls n).map strip).any fun s => cookieReadable s && hardened s).map fieldSubject) := by
  refine (cookie_eval P (X := .SET_COOKIE_HARDENED) (by own_only) hk hurl).congr ?_
  rw [← flatMap_ite_map]
  apply flatMap_congr_mem
  intro n _
  have e : (((valuesOf ls n).filterMap fun v => cookieRecord u.path (strip v)).any fun x => isHardened (cookieOf x).2.2) =
      ((valuesOf ls n).map strip).any fun s => cookieReadable s && hardened s := by
    induction valuesOf ls n with
    | nil => rfl
    | cons v vs ih =>
      rw [List.filterMap_cons, List.map_cons, List.any_cons, ← ih]
      cases h : cookieReadable (strip v)
      · rw [show cookieRecord u.path (strip v) = none by unfold cookieRecord; rw [h]; rfl]
        rfl
      · rw [cookieRecord, if_pos h]
        dsimp only
        rw [List.any_cons]
        congr 1
        refine (congrArg isHardened (attrs_roundtrip _)).trans (hardened_eq _ _)
  rw [e]
  have z : ∀ (b : Bool) (s : Str), ((if b then [(NoteId.SET_COOKIE_NAME_DUP, s)] else []).filter fun p => p.1 == .SET_COOKIE_HARDENED) = [] := by
    intro b s; cases b <;> rfl
  have z2 : (((sent m.kind n ls).flatMap fun p => (cookieLineNotes m.startTime u.path (strip p.2)).map (·, offsetSubject p.1)).filter fun p => p.1 == NoteId.SET_COOKIE_HARDENED) = [] := by
    rw [List.filter_eq_nil_iff]
    intro x hx
    obtain ⟨p, _, hx⟩ := List.mem_flatMap.1 hx
    obtain ⟨y, hy, rfl⟩ := List.mem_map.1 hx
    intro hc
    have hc : y = .SET_COOKIE_HARDENED := by simpa using hc
    subst hc
    exact absurd (cookieLineNotes_class _ _ _ _ hy) (by decide)
  rw [List.filter_append, List.filter_append, z, z2]
  cases (((valuesOf ls n).map strip).any fun s => cookieReadable s && hardened s) <;> rfl

theorem beforeLastSlash_spec (s : Str) (h : 0 < s.count 47) : ∃ rest, 47 ∉ rest ∧ s = beforeLastSlash s ++ 47 :: rest := by
  unfold beforeLastSlash
  refine ⟨(s.reverse.takeWhile (· != 47)).reverse, ?_, ?_⟩
  · intro hm
    rw [List.mem_reverse] at hm
    have key : ∀ l : Str, 47 ∉ l.takeWhile (· != 47) := by
      intro l
      induction l with
      | nil => simp
      | cons a l ih =>
        rw [List.takeWhile_cons]
        split
        · rename_i ha
          intro h
          rcases List.mem_cons.1 h with h | h
          · rw [← h] at ha; exact absurd ha (by decide)
          · exact ih h
        · simp
    exact key _ hm
  · have h1 : s.reverse.takeWhile (· != 47) ++ s.reverse.dropWhile (· != 47) = s.reverse := List.takeWhile_append_dropWhile
    have h2 : (47 : Nat) ∈ s.reverse := by rw [List.mem_reverse]; exact List.count_pos_iff.1 h
    have h3 : ∃ d, s.reverse.dropWhile (· != 47) = 47 :: d := by
      clear h h1
      generalize s.reverse = l at *
      induction l with
      | nil => exact absurd h2 (by simp)
      | cons a l ih =>
        by_cases ha : a = 47
        · exact ⟨l, by rw [List.dropWhile_cons, if_neg (by simp [ha]), ha]⟩
        · rw [List.dropWhile_cons, if_pos (by simp [ha])]
          exact ih (by rcases List.mem_cons.1 h2 with h | h; exact absurd h.symm ha; exact h)
    obtain ⟨d, hd⟩ := h3
    rw [hd] at h1
    rw [hd]
    have h4 := congrArg List.reverse h1
    rw [List.reverse_reverse] at h4
    refine h4.symm.trans ?_
    simp

/-- **C60** (default path) a path that starts with `/` is kept; otherwise the path is what the path of the URI has before its last `/`,
or `/` if it has only one or none -/
theorem C60_path (uriPath v : Str) :
    (v.head? = some 47 → cookiePath uriPath v = v) ∧
    (v.head? ≠ some 47 → uriPath.count 47 < 2 → cookiePath uriPath v = str "/") ∧
    (v.head? ≠ some 47 → 2 ≤ uriPath.count 47 → ∃ rest, 47 ∉ rest ∧ uriPath = cookiePath uriPath v ++ 47 :: rest) := by
  unfold cookiePath
  refine ⟨fun h => by rw [if_pos h], fun h h2 => by rw [if_neg h, if_pos h2], fun h h2 => ?_⟩
  rw [if_neg h, if_neg (by omega)]
  exact beforeLastSlash_spec uriPath (by omega)

/-! ### examples -/

/-- `__Host-` with two paths, the last of which isn't `/`, isn't reported -/
theorem C61_path_fails :
    pathsOf [] (str "__Host-a=b; Secure; Path=/; Path=/x") = [str "/", str "/x"] ∧
    (oneField (str "Set-Cookie") (str "__Host-a=b; Secure; Path=/; Path=/x")).2 = .ok () ∧
    ((oneField (str "Set-Cookie") (str "__Host-a=b; Secure; Path=/; Path=/x")).1.notes.map (·.cls)).contains .SET_COOKIE_PREFIX_HOST_BAD_PATH = false := by
  decide +kernel

/-- non-vacuity -/
example : (oneField (str "Set-Cookie") (str "__Host-a=b; secure; DOMAIN=x; Foo; foo=1; httponly; samesite")).1.notes.map (fun x => (x.cls, x.subject)) =
    [(.SET_COOKIE_HARDENED, str "field-set-cookie"), (.SET_COOKIE_UNKNOWN_ATTRIBUTE, str "offset-0"), (.SET_COOKIE_ATTRIBUTE_DUP, str "offset-0"),
     (.SET_COOKIE_UNKNOWN_ATTRIBUTE, str "offset-0"), (.SET_COOKIE_PREFIX_HOST_BAD_PATH, str "offset-0"), (.SET_COOKIE_PREFIX_HOST_BAD_DOMAIN, str "offset-0")] := by
  decide +kernel


end

end HL.Props
