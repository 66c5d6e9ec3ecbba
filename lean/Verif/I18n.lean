import Verif.Py

/-!
# i18n.py: the locale

A context variable is a cell; `set` returns a token holding the previous value and `reset` puts it back.  Programs
that use `set_locale` are a small language; the interpreter follows the `try`/`finally` of the context manager.
-/

namespace HL.I18n

/-- programs using the locale -/
inductive Prog where
  /-- `translate(message)` -/
  | translate (msg : Str)
  /-- raise an exception -/
  | raise (e : Exn)
  | seq (p q : Prog)
  /-- `with set_locale(name): body` -/
  | withLocale (name : Option Str) (body : Prog)
  /-- `try: body except Exception: handler` -/
  | tryExcept (body handler : Prog)
  deriving Repr

/-- i18n.py:19 `locale_name or "en"` -/
def effective : Option Str → Str
  | some s => if s.isEmpty then str "en" else s
  | none => str "en"

/-- outcome: the value of the context variable, what was translated under which locale, and whether it raised -/
structure Out where
  locale : Str
  log : List (Str × Str)
  res : Except Exn Unit

/-- i18n.py:14-24: run a program with the context variable holding `cur` -/
def run : Prog → Str → Out
  | .translate m, cur => ⟨cur, [(cur, m)], .ok ()⟩
  | .raise e, cur => ⟨cur, [], .error e⟩
  | .seq p q, cur =>
    let a := run p cur
    match a.res with
    | .error e => ⟨a.locale, a.log, .error e⟩
    | .ok () =>
      let b := run q a.locale
      ⟨b.locale, a.log ++ b.log, b.res⟩
  | .withLocale name body, cur =>
    let token := cur
    let a := run body (effective name)
    -- `finally: _locale_var.reset(token)`
    ⟨token, a.log, a.res⟩
  | .tryExcept body handler, cur =>
    let a := run body cur
    match a.res with
    | .ok () => a
    | .error _ =>
      let b := run handler a.locale
      ⟨b.locale, a.log ++ b.log, b.res⟩

end HL.I18n
