import Verif.I18n

/-!
# i18n.py and note.py: rendering notes on several threads

What threads share is the table `_translations_cache` (i18n.py:10), read and filled by `get_translations` without a
lock.  The locale (`_locale_var`, i18n.py:11) is a context variable, so each thread has its own, and the Markdown
converter is kept in a `threading.local` (note.py:15-19), so each thread has its own of those too.  A thread is a
small-step machine; between any two of its steps any other thread may take any number of steps.  One step touches the
shared table at most once: that a single look-up or store in a `dict` is atomic is CPython's guarantee.

Not modelled: `asyncio` tasks (each runs in a copy of its creator's context), and the texts of the translations.
-/

namespace HL.Threads

/-- What the libraries below supply. -/
structure Lib where
  /-- a catalogue of translations (babel `NullTranslations`) -/
  Catalogue : Type
  /-- `Translations.load(localedir, [locale])` (i18n.py:31): files are not changed while the program runs -/
  load : Str → Except Exn Catalogue
  /-- `translations.gettext(message)` (i18n.py:40) -/
  gettext : Catalogue → Str → Str
  /-- a `Markdown` converter, with whatever it remembers between conversions -/
  Converter : Type
  /-- `Markdown(output_format="html")` (note.py:37) -/
  fresh : Converter
  /-- `Markdown.reset` (note.py:159) -/
  reset : Converter → Converter
  /-- `Markdown.convert` (note.py:159): the HTML (or an exception), and the converter afterwards -/
  convert : Converter → Str → Except Exn Str × Converter

/-- What a thread does. -/
inductive Job where
  /-- `translate(message)` (i18n.py:34-41) -/
  | translate (msg : Str)
  /-- `note.summary` (note.py:127-134) or `note.detail` (note.py:136-160, `html := true`) of a note with text `text`;
  `fill` is `% vars` -/
  | show (html : Bool) (text : Str) (fill : Str → Except Exn Str)
  | raise (e : Exn)
  | seq (p q : Job)
  /-- `with set_locale(name): body` -/
  | withLocale (name : Option Str) (body : Job)
  /-- `try: body except Exception: handler` -/
  | tryExcept (body handler : Job)

/-- what the translated text is for -/
inductive Use where
  | plain
  | show (html : Bool) (fill : Str → Except Exn Str)

/-- where a thread is -/
inductive Ctl (L : Lib) where
  /-- about to run a program -/
  | run (p : Job)
  /-- i18n.py:28 has read the locale; i18n.py:29 is next -/
  | looked (locale msg : Str) (u : Use)
  /-- i18n.py:29 found nothing in the table; the load of i18n.py:31 is next -/
  | missing (locale msg : Str) (u : Use)
  /-- i18n.py:31 has loaded; its store is next -/
  | loaded (locale msg : Str) (c : L.Catalogue) (u : Use)
  /-- i18n.py:32 is next: read the table -/
  | present (locale msg : Str) (u : Use)
  /-- i18n.py:40 is next -/
  | found (c : L.Catalogue) (msg : Str) (u : Use)
  /-- note.py:36: is there a converter? -/
  | wantConverter (text : Str) (fill : Str → Except Exn Str)
  /-- note.py:37: make one -/
  | makeConverter (text : Str) (fill : Str → Except Exn Str)
  /-- note.py:159 `.reset()` is next; the argument of `.convert` is evaluated after it -/
  | resetConverter (text : Str) (fill : Str → Except Exn Str)
  /-- note.py:159 `.convert(...)` is next -/
  | convertNow (md : Str)
  /-- normal completion -/
  | done
  /-- an exception is being raised -/
  | throw (e : Exn)

/-- what remains to be done after the current statement -/
inductive Frame where
  | next (q : Job)
  /-- i18n.py:23-24 `finally: _locale_var.reset(token)` -/
  | restore (token : Str)
  | handler (h : Job)

/-- A thread: its position, its stack, its context variable, its converter, and what it has obtained so far. -/
structure Thread (L : Lib) where
  ctl : Ctl L
  stack : List Frame
  locale : Str
  md : Option L.Converter
  out : List Str

/-- the shared table -/
abbrev Table (L : Lib) := List (Str × L.Catalogue)

/-- `table[l]` -/
def Table.get? {L : Lib} (t : Table L) (l : Str) : Option L.Catalogue := (t.find? (fun e => e.1 == l)).map (·.2)

/-- a thread starts with its own context, whose locale is `cur` ("en" for a new thread: i18n.py:11), and no
converter -/
def start {L : Lib} (p : Job) (cur : Str) : Thread L := ⟨.run p, [], cur, none, []⟩

/-- One step of one thread.  i18n.py:14-41, note.py:34-38, 127-160 -/
def step {L : Lib} (t : Thread L) (tab : Table L) : Thread L × Table L :=
  match t.ctl with
  | .run (.translate m) => ({ t with ctl := .looked t.locale m .plain }, tab)
  | .run (.show false text fill) => ({ t with ctl := .looked t.locale text (.show false fill) }, tab)
  | .run (.show true text fill) => ({ t with ctl := .wantConverter text fill }, tab)
  | .run (.raise e) => ({ t with ctl := .throw e }, tab)
  | .run (.seq p q) => ({ t with ctl := .run p, stack := .next q :: t.stack }, tab)
  | .run (.withLocale name body) =>
    -- i18n.py:19 `token = _locale_var.set(locale_name or "en")`
    ({ t with ctl := .run body, stack := .restore t.locale :: t.stack, locale := I18n.effective name }, tab)
  | .run (.tryExcept body h) => ({ t with ctl := .run body, stack := .handler h :: t.stack }, tab)
  | .looked l m u =>
    match tab.get? l with
    | some _ => ({ t with ctl := .present l m u }, tab)
    | none => ({ t with ctl := .missing l m u }, tab)
  | .missing l m u =>
    match L.load l with
    | .ok c => ({ t with ctl := .loaded l m c u }, tab)
    | .error e => ({ t with ctl := .throw e }, tab)
  | .loaded l m c u => ({ t with ctl := .present l m u }, (l, c) :: tab)
  | .present l m u =>
    match tab.get? l with
    | some c => ({ t with ctl := .found c m u }, tab)
    | none => ({ t with ctl := .throw .keyError }, tab)
  | .found c m .plain => ({ t with ctl := .done, out := t.out ++ [L.gettext c m] }, tab)
  | .found c m (.show html fill) =>
    match fill (L.gettext c m) with
    | .error e => ({ t with ctl := .throw e }, tab)
    | .ok s =>
      if html then ({ t with ctl := .convertNow s }, tab)
      else ({ t with ctl := .done, out := t.out ++ [s] }, tab)
  | .wantConverter s f =>
    match t.md with
    | some _ => ({ t with ctl := .resetConverter s f }, tab)
    | none => ({ t with ctl := .makeConverter s f }, tab)
  | .makeConverter s f => ({ t with ctl := .resetConverter s f, md := some L.fresh }, tab)
  | .resetConverter s f =>
    match t.md with
    | some m => ({ t with ctl := .looked t.locale s (.show true f), md := some (L.reset m) }, tab)
    | none => ({ t with ctl := .throw .attributeError }, tab)
  | .convertNow s =>
    match t.md with
    | some m =>
      match (L.convert m s).1 with
      | .ok h => ({ t with ctl := .done, md := some (L.convert m s).2, out := t.out ++ [h] }, tab)
      | .error e => ({ t with ctl := .throw e, md := some (L.convert m s).2 }, tab)
    | none => ({ t with ctl := .throw .attributeError }, tab)
  | .done =>
    match t.stack with
    | [] => (t, tab)
    | .next q :: k => ({ t with ctl := .run q, stack := k }, tab)
    | .restore l :: k => ({ t with stack := k, locale := l }, tab)
    | .handler _ :: k => ({ t with stack := k }, tab)
  | .throw e =>
    match t.stack with
    | [] => (t, tab)
    | .next _ :: k => ({ t with stack := k }, tab)
    | .restore l :: k => ({ t with ctl := .throw e, stack := k, locale := l }, tab)
    | .handler h :: k => ({ t with ctl := .run h, stack := k }, tab)

/-- the whole process: the shared table and the threads -/
structure System (L : Lib) where
  table : Table L
  threads : List (Thread L)

/-- thread number `i` takes a step -/
def System.tick {L : Lib} (s : System L) (i : Nat) : System L :=
  match s.threads[i]? with
  | none => s
  | some t => ⟨(step t s.table).2, s.threads.set i (step t s.table).1⟩

/-- a schedule says which thread takes each step -/
def System.runs {L : Lib} (s : System L) (schedule : List Nat) : System L := schedule.foldl System.tick s

end HL.Threads
