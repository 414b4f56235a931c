#!/usr/bin/env python3
"""Transcribe the pyXSteam sources (read as text, never imported or run) into the shallow Lean
embedding of lean/Verif/Model/Base.lean.  The output is committed; this script is not part of the
trusted base: the Lean text it prints is the model, and it cites the source lines of every definition.

usage: py2lean.py /repo/pyXSteam /verif/lean/Verif/Model
"""
import ast, sys, os

SRC, OUT = sys.argv[1], sys.argv[2]
INTVARS = {"region", "sub_reg", "region_pT_number"}
DROPVARS = {"step_counter", "logger"}
MODS = {"RegionBorders", "RegionSelection", "TransportProperties", "IAPWS_R14", "IAPWS_R4",
        "Region1", "Region2", "Region3", "Region4", "Region5"}
LOGFN = {"warning": "warn", "error": "logError", "debug": "logDebug", "info": "logInfo"}


class Fn:
    def __init__(self, ns, node, fname, src):
        self.ns, self.node, self.fname, self.src = ns, node, fname, src
        self.name = node.name.strip("_")
        self.deps = set()
        self.tables = []   # (name, type, text)
        self.loops = []    # extra defs
        self.text = None


def num_lit(node, src):
    """source text of a (possibly negated) numeric literal, or None"""
    n = node
    if isinstance(n, ast.UnaryOp) and isinstance(n.op, ast.USub):
        n = n.operand
    if isinstance(n, ast.Constant) and isinstance(n.value, (int, float)) and not isinstance(n.value, bool):
        return ast.get_source_segment(src, node).replace(" ", "")
    return None


def is_int_lit(node):
    n = node
    if isinstance(n, ast.UnaryOp) and isinstance(n.op, ast.USub):
        n = n.operand
    return isinstance(n, ast.Constant) and isinstance(n.value, int)


def lean_num(t):
    """python numeric literal text -> lean scientific literal text"""
    neg = t.startswith("-")
    if neg:
        t = t[1:]
    t = t.lower().replace("e+", "e")
    if t.startswith("."):
        t = "0" + t
    if t.endswith("."):
        t = t + "0"
    return "-" + t if neg else t


def paren_neg(t):
    return f"({t})" if t.startswith("-") else t


class Comp:
    def __init__(self, fn, consts):
        self.fn, self.consts = fn, consts
        self.src = fn.src
        self.cls = fn.ns
        self.selfcls = fn.ns in ("XSteam", "XSteam_HW", "UnitConverter")
        self.tabcount = {}
        self.loopcount = 0
        self.ty = "int" if fn.node.name.startswith("region_") else "num"
        self.ninit = 0

    # ---------- uses / liveness ----------
    def uses(self, node):
        return {n.id for n in ast.walk(node) if isinstance(n, ast.Name) and isinstance(n.ctx, ast.Load)} - DROPVARS

    def is_log(self, s):
        return (isinstance(s, ast.Expr) and isinstance(s.value, ast.Call)
                and isinstance(s.value.func, ast.Attribute) and s.value.func.attr in LOGFN)

    def skip(self, s):
        if isinstance(s, ast.Expr) and isinstance(s.value, ast.Constant):
            return True
        if isinstance(s, ast.Assign) and isinstance(s.targets[0], ast.Name) and s.targets[0].id in DROPVARS:
            return True
        if isinstance(s, ast.AugAssign) and s.target.id in DROPVARS:
            return True
        return False

    def live1(self, s, after):
        if self.skip(s) or self.is_log(s):
            return set(after)
        if isinstance(s, ast.Assign):
            return (after - {s.targets[0].id}) | self.uses(s.value)
        if isinstance(s, ast.AugAssign):
            return after | {s.target.id} | self.uses(s.value)
        if isinstance(s, ast.If):
            return self.uses(s.test) | self.live(s.body, after) | self.live(s.orelse, after)
        if isinstance(s, (ast.For, ast.While)):
            L = set(after)
            for _ in range(3):
                L = L | self.live(s.body, L) | (self.uses(s.test) if isinstance(s, ast.While) else set())
            return L - ({s.target.id} if isinstance(s, ast.For) else set())
        if isinstance(s, ast.Return):
            return self.uses(s.value)
        if isinstance(s, ast.Raise):
            return set()
        if isinstance(s, ast.Break):
            return set(after)
        if isinstance(s, ast.Expr):  # B.append
            return after | self.uses(s.value)
        raise Exception(ast.dump(s))

    def live(self, stmts, after):
        L = set(after)
        for s in reversed(stmts):
            if isinstance(s, (ast.Return, ast.Raise)):
                L = set()
            L = self.live1(s, L)
        return L

    def assigned(self, stmts):
        out = []
        for s in stmts:
            if self.skip(s):
                continue
            if isinstance(s, ast.Assign) and isinstance(s.targets[0], ast.Name):
                if not self.table_value(s.value):
                    out.append(s.targets[0].id)
            elif isinstance(s, ast.AugAssign):
                out.append(s.target.id)
            elif isinstance(s, (ast.If,)):
                out += self.assigned(s.body) + self.assigned(s.orelse)
            elif isinstance(s, (ast.For, ast.While)):
                out += self.assigned(s.body)
        return list(dict.fromkeys(out))

    def always_esc(self, stmts):
        if not stmts:
            return False
        s = stmts[-1]
        if isinstance(s, (ast.Return, ast.Raise, ast.Break)):
            return True
        return isinstance(s, ast.If) and self.always_esc(s.body) and self.always_esc(s.orelse)

    def may_esc(self, stmts):
        for s in stmts:
            if isinstance(s, (ast.Return, ast.Raise, ast.Break)):
                return True
            if isinstance(s, ast.If) and (self.may_esc(s.body) or self.may_esc(s.orelse)):
                return True
        return False

    # ---------- expressions ----------
    def table_value(self, v):
        return (isinstance(v, (ast.List, ast.Tuple))
                or (isinstance(v, ast.Call) and isinstance(v.func, ast.Name) and v.func.id == "list"))

    def lift(self, code):
        return f"(← {code})"

    def strip(self, code):
        """`(← X)` -> X, if the whole expression is one action"""
        if code.startswith("(← "):
            d = 0
            for i, c in enumerate(code):
                d += c == "("
                d -= c == ")"
                if d == 0:
                    return code[3:-1] if i == len(code) - 1 else None
        return None

    def num(self, node, env):
        c, t = self.expr(node, env)
        if t == "int":
            return f"(Num.ofInt {c})"
        return c

    def atom(self, c):
        return c if (c.startswith("(") or c.replace("_", "a").replace(".", "a").isalnum()) else f"({c})"

    def const_ref(self, attr):
        nm = attr.strip("_")
        kind = self.consts[attr][0]
        return (f"Constants.{nm}", "int") if kind == "int" else (f"(F.lit Constants.{nm})", "num")

    def expr(self, n, env):
        if isinstance(n, ast.Constant):
            t = ast.get_source_segment(self.src, n)
            if isinstance(n.value, int):
                return t, "int"
            return f"(F.lit {lean_num(t)})", "num"
        if isinstance(n, ast.Name):
            k = env.get(n.id)
            if k is None:
                raise Exception(f"{self.fn.name}: unbound {n.id}")
            if k == "maybe":
                return self.lift(f"getVar {n.id}"), "num"
            if k == "int":
                return n.id, "int"
            if k == "nat":
                return f"({n.id} : ℤ)", "int"
            return n.id, "num"
        if isinstance(n, ast.UnaryOp) and isinstance(n.op, ast.USub):
            c, t = self.expr(n.operand, env)
            if t == "int":
                return f"(-{c})", "int"
            return f"(Num.neg {c})", "num"
        if isinstance(n, ast.BinOp):
            a, ta = self.expr(n.left, env)
            b, tb = self.expr(n.right, env)
            op = type(n.op)
            if ta == tb == "int" and op in (ast.Add, ast.Sub, ast.Mult):
                return f"({a} {dict([(ast.Add,'+'),(ast.Sub,'-'),(ast.Mult,'*')])[op]} {b})", "int"
            if ta == "int":
                a = f"(Num.ofInt {a})"
            if tb == "int":
                b = f"(Num.ofInt {b})"
            f = {ast.Add: "F.add", ast.Sub: "F.sub", ast.Mult: "F.mul", ast.Div: "F.div", ast.Pow: "F.pow"}[op]
            c = f"{f} {a} {b}"
            return (self.lift(c) if op in (ast.Div, ast.Pow) else f"({c})"), "num"
        if isinstance(n, ast.Subscript):
            # table[i] or table[j][i]
            i = n.slice
            if isinstance(n.value, ast.Subscript):
                base = self.lift(f"idx {env[n.value.value.id][1]} {self.index(n.value.slice, env)}")
                kind = "rat"
            else:
                k = env[n.value.id]
                base, kind = k[1], k[2]
            c = self.lift(f"idx {base} {self.index(i, env)}")
            if kind == "int":
                return c, "int"
            return f"(F.lit {c})", "num"
        if isinstance(n, ast.Attribute):
            if isinstance(n.value, ast.Name) and n.value.id == "Constants":
                return self.const_ref(n.attr)
            raise Exception(ast.dump(n))
        if isinstance(n, ast.Call):
            return self.call(n, env)
        raise Exception(ast.dump(n))

    def index(self, n, env):
        if isinstance(n, ast.Constant):
            return str(n.value)
        if isinstance(n, ast.Name) and env[n.id] == "nat":
            return n.id
        raise Exception(ast.dump(n))

    def call(self, n, env):
        f = n.func
        args = n.args
        if isinstance(f, ast.Name):
            if f.id == "float":
                if isinstance(args[0], ast.Constant) and isinstance(args[0].value, str):
                    assert args[0].value == "NaN"
                    return "Num.nan", "num"
                return self.num(args[0], env), "num"
            if f.id == "abs":
                return f"(Num.fabs {self.num(args[0], env)})", "num"
            raise Exception(ast.dump(n))
        a = [self.num(x, env) for x in args]
        if isinstance(f.value, ast.Name) and f.value.id == "math":
            if f.attr == "fabs":
                return f"(Num.fabs {a[0]})", "num"
            return self.lift(f"F.{f.attr} {a[0]}"), "num"
        if isinstance(f.value, ast.Name) and f.value.id in MODS:
            self.fn.deps.add((f.value.id, f.attr))
            t = "int" if f.attr.startswith("region_") else "num"
            return self.lift(f"{f.value.id}.{f.attr} F {' '.join(a)}"), t
        if isinstance(f.value, ast.Name) and f.value.id == "self":
            self.fn.deps.add((self.cls, f.attr))
            return self.lift(f"{self.cls}.{f.attr} F u {' '.join(a)}"), "num"
        if isinstance(f.value, ast.Attribute) and f.value.attr in ("_unit_converter", "unit_converter"):
            return self.lift(f"UnitConverter.{f.attr} F u {' '.join(a)}"), "num"
        raise Exception(ast.dump(n))

    # ---------- conditions: (pure?, text) ----------
    def cond(self, n, env):
        if isinstance(n, ast.BoolOp):
            parts = [self.cond(v, env) for v in n.values]
            if all(p for p, _ in parts):
                op = " ∧ " if isinstance(n.op, ast.And) else " ∨ "
                return True, op.join(f"({t})" for _, t in parts)
            # short-circuit with an effect in a later operand
            isand = isinstance(n.op, ast.And)
            code = None
            for p, t in reversed(parts):
                if code is None:
                    code = f"(do pure (decide ({t})))"
                elif isand:
                    code = f"(do if {t} then {code} else pure false)"
                else:
                    code = f"(do if {t} then pure true else {code})"
            return False, f"(← ({code} : Py Bool)) = true"
        if isinstance(n, ast.Compare):
            items = [n.left] + n.comparators
            if isinstance(n.ops[0], ast.In):
                v, t = self.expr(n.left, env)
                lst = ", ".join(ast.get_source_segment(self.src, e) for e in n.comparators[0].elts)
                return True, f"{v} ∈ ([{lst}] : List ℤ)"
            if isinstance(n.ops[0], ast.Is):
                l, r = n.left, n.comparators[0]
                if isinstance(l, ast.Attribute) and l.attr == "_unit_system":
                    return True, f"u = .{r.attr.strip('_').split('_')[-1].lower()}"
                if isinstance(r, ast.Constant) and r.value is None:
                    return True, f"{l.id}.isNone"
                return True, f"{l.id}.isInt IAPWS_R14.{r.attr}"
            out = []
            pure = True
            es = [self.expr(x, env) for x in items]
            for j, op in enumerate(n.ops):
                (a, ta), (b, tb) = es[j], es[j + 1]
                if ta == tb == "int":
                    o = {ast.Eq: "=", ast.Lt: "<", ast.Gt: ">", ast.LtE: "≤", ast.GtE: "≥"}[type(op)]
                    out.append(f"{a} {o} {b}")
                    continue
                if ta == "int":
                    a = f"(Num.ofInt {a})"
                if tb == "int":
                    b = f"(Num.ofInt {b})"
                if isinstance(op, ast.Eq):
                    out.append(f"Num.feq {a} {b}")
                else:
                    o = {ast.Lt: "<", ast.Gt: ">", ast.LtE: "≤", ast.GtE: "≥"}[type(op)]
                    out.append(f"{a} {o} {b}")
            txt = " ∧ ".join(out) if len(out) == 1 else " ∧ ".join(f"({o})" for o in out)
            return ("←" not in txt), txt
        raise Exception(ast.dump(n))

    # ---------- statements ----------
    def table(self, name, v, env):
        cnt = self.tabcount.get(name, 0)
        self.tabcount[name] = cnt + 1
        tn = f"{self.fn.name}.{name}" if cnt == 0 else f"{self.fn.name}.{name}_{cnt+1}"
        els = v.elts
        allint = all(is_int_lit(e) for e in els)
        txt = ", ".join(lean_num(num_lit(e, self.src)) for e in els)
        self.fn.tables.append((tn, "List ℤ" if allint else "List ℚ", f"[{txt}]", v.lineno, v.end_lineno))
        env[name] = ("tab", tn, "int" if allint else "rat")

    def tup(self, vs, env, kinds):
        """tuple of current values, wrapping into Option where the merged kind is maybe"""
        out = []
        for v in vs:
            k = env.get(v)
            if kinds[v] == "maybe":
                out.append(v if k == "maybe" else ("none" if k is None else f"(some {v})"))
            else:
                out.append(v)
        return out[0] if len(out) == 1 else "(" + ", ".join(out) + ")"

    def pat(self, vs):
        return vs[0] if len(vs) == 1 else "(" + ", ".join(vs) + ")"

    def lean_ty(self, k):
        return {"num": "Num", "maybe": "Option Num", "int": "ℤ"}[k]

    def block(self, stmts, env, after, k, ind, ctl=None):
        """k(env, ind) -> lines emitted when control falls off the end.  ctl: loop break emitter."""
        env = dict(env)
        L = []
        sp = "  " * ind
        for j, s in enumerate(stmts):
            rest = stmts[j + 1:]
            if self.skip(s):
                continue
            if self.is_log(s):
                msg = ast.literal_eval(s.value.args[0])
                L.append(f'{sp}{LOGFN[s.value.func.attr]} "{msg}"')
                continue
            if isinstance(s, ast.Expr) and isinstance(s.value, ast.Call) and s.value.func.attr == "append":
                nm = s.value.func.value.id
                rows = self.append_rows.setdefault(nm, [])
                rows.append("[" + ", ".join(lean_num(num_lit(e, self.src)) for e in s.value.args[0].elts) + "]")
                self.append_lines.setdefault(nm, []).append(s.lineno)
                if not (rest and isinstance(rest[0], ast.Expr) and isinstance(rest[0].value, ast.Call)
                        and getattr(rest[0].value.func, "attr", "") == "append"):
                    ll = self.append_lines[nm]
                    self.fn.tables.append((f"{self.fn.name}.{nm}", "List (List ℚ)",
                                           "[" + ",\n   ".join(rows) + "]", ll[0], ll[-1]))
                    env[nm] = ("tab", f"{self.fn.name}.{nm}", "rat2")
                continue
            if isinstance(s, ast.Assign):
                t = s.targets[0].id
                if isinstance(s.value, (ast.List, ast.Tuple)):
                    self.table(t, s.value, env)
                    continue
                if self.table_value(s.value):
                    continue
                if t in INTVARS:
                    c, ty = self.expr(s.value, env)
                    kind = "int"
                else:
                    c = self.num(s.value, env)
                    kind = "num"
                st = self.strip(c)
                if st:
                    L.append(f"{sp}let {t} ← {st}")
                else:
                    if kind == "int":
                        L.append(f"{sp}let {t} : ℤ := {c}")
                    else:
                        if t == c:
                            env[t] = kind
                            continue
                        L.append(f"{sp}let {t} := {c}")
                env[t] = kind
                continue
            if isinstance(s, ast.AugAssign):
                t = s.target.id
                assert isinstance(s.op, ast.Add)
                L.append(f"{sp}let {t} := F.add {t} {self.num(s.value, env)}")
                env[t] = "num"
                continue
            if isinstance(s, ast.Return):
                c, ty = self.expr(s.value, env)
                if ty == "int" and self.ty == "num":
                    c = f"(Num.ofInt {c})"
                st = self.strip(c)
                L.append(f"{sp}{st}" if st else f"{sp}pure {c}")
                return L
            if isinstance(s, ast.Raise):
                assert s.exc.func.id == "ValueError"
                L.append(f"{sp}Py.raise .value")
                return L
            if isinstance(s, ast.Break):
                L += ctl(env, ind)
                return L
            if isinstance(s, ast.If):
                live_rest = self.live(rest, after)
                p, c = self.cond(s.test, env)
                mb, me = self.may_esc(s.body), self.may_esc(s.orelse)
                if not mb and not me:
                    vs = [v for v in dict.fromkeys(self.assigned(s.body) + self.assigned(s.orelse)) if v in live_rest]
                    ends = []

                    def probe(env2, ind2):
                        ends.append(dict(env2))
                        return []
                    save = (dict(self.tabcount), list(self.fn.tables), self.loopcount, list(self.fn.loops))
                    self.block(s.body, env, live_rest, probe, ind + 1, ctl)
                    self.block(s.orelse, env, live_rest, probe, ind + 1, ctl)
                    self.tabcount, self.fn.tables, self.loopcount, self.fn.loops = save
                    kinds = {}
                    for v in vs:
                        ks = [e.get(v) for e in ends]
                        kinds[v] = "maybe" if (None in ks or "maybe" in ks) else ks[0]
                    def fin(env2, ind2):
                        if not vs:
                            return ["  " * ind2 + "pure ()"]
                        return ["  " * ind2 + f"pure {self.tup(vs, env2, kinds)}"]
                    head = f"let {self.pat(vs)} ← " if vs else ""
                    tyann = " × ".join(self.lean_ty(kinds[v]) for v in vs)
                    if any(kinds[v] == "maybe" for v in vs):
                        head = f"let {self.pat(vs)} ← (show Py ({tyann}) from do"
                        L.append(f"{sp}{head}")
                        L.append(f"{sp}  if {c} then do")
                        L += self.block(s.body, env, live_rest, fin, ind + 2, ctl)
                        L.append(f"{sp}  else do")
                        L += self.block(s.orelse, env, live_rest, fin, ind + 2, ctl)
                        L[-1] += ")"
                    else:
                        L.append(f"{sp}{head}if {c} then do")
                        L += self.block(s.body, env, live_rest, fin, ind + 1, ctl)
                        L.append(f"{sp}else do")
                        L += self.block(s.orelse, env, live_rest, fin, ind + 1, ctl)
                    for v in vs:
                        env[v] = kinds[v]
                    continue
                if self.always_esc(s.body):
                    L.append(f"{sp}if {c} then do")
                    L += self.block(s.body, env, after, None, ind + 1, ctl)
                    L.append(f"{sp}else do")
                    L += self.block(list(s.orelse) + list(rest), env, after, k, ind + 1, ctl)
                    return L
                if s.orelse and self.always_esc(s.orelse):
                    L.append(f"{sp}if {c} then do")
                    L += self.block(list(s.body) + list(rest), env, after, k, ind + 1, ctl)
                    L.append(f"{sp}else do")
                    L += self.block(s.orelse, env, after, None, ind + 1, ctl)
                    return L
                # mixed: the remaining statements become a join point, printed as a definition of its own
                if not rest:
                    L.append(f"{sp}if {c} then do")
                    L += self.block(s.body, env, after, k, ind + 1, ctl)
                    L.append(f"{sp}else do")
                    L += self.block(s.orelse, env, after, k, ind + 1, ctl)
                    return L
                assert k is None and ctl is None
                vs = [v for v in dict.fromkeys(self.assigned(s.body) + self.assigned(s.orelse)) if v in live_rest]
                env3 = dict(env)
                for v in vs:
                    env3[v] = "int" if v in INTVARS else "num"
                kn = f"{self.fn.name}.rest" + ("" if self.ninit == 0 else str(self.ninit + 1))
                self.ninit += 1
                pars = [v for v in dict.fromkeys(list(env3)) if v in live_rest and env3[v] in ("num", "int")]
                rty = "ℤ" if self.ty == "int" else "Num"
                up = " (u : UnitSystem)" if self.selfcls else ""
                body = self.block(rest, env3, after, k, 1, ctl)
                self.fn.loops.append(
                    f"/-- the code after the branch at line {s.lineno}.\n"
                    f"pyXSteam/{self.fn.fname}:{rest[0].lineno}-{rest[-1].end_lineno} -/\n"
                    f"noncomputable def {kn} (F : FP){up} {' '.join(f'({v} : {self.lean_ty(env3[v])})' for v in pars)} : Py {rty} := do\n"
                    + "\n".join(body) + "\n")
                jump = lambda e2, i2: ["  " * i2 + f"{self.cls}.{kn} F {'u ' if self.selfcls else ''}{' '.join(pars)}"]
                L.append(f"{sp}if {c} then do")
                L += self.block(s.body, env, live_rest, jump, ind + 1, ctl)
                L.append(f"{sp}else do")
                L += self.block(s.orelse, env, live_rest, jump, ind + 1, ctl)
                return L
            if isinstance(s, ast.For):
                live_rest = self.live(rest, after)
                i = s.target.id
                lo, hi = [a.value for a in s.iter.args]
                liveb = self.live1(s, live_rest)
                vs = [v for v in self.assigned(s.body) if v in liveb]
                env2 = dict(env)
                env2[i] = "nat"
                kinds = {v: "num" for v in vs}
                for v in vs:
                    assert env.get(v) == "num", (self.fn.name, v)
                fin = lambda e, i2: ["  " * i2 + f"pure {self.tup(vs, e, kinds)}"]
                L.append(f"{sp}let {self.pat(vs)} ← forRange {lo} {hi} {self.tup(vs, env, kinds)} fun {i} {self.pat(vs)} => do")
                L += self.block(s.body, env2, set(vs), fin, ind + 1)
                continue
            if isinstance(s, ast.While):
                live_rest = self.live(rest, after)
                liveb = self.live1(s, live_rest)
                vs = [v for v in self.assigned(s.body) if v in liveb]
                kinds = {v: ("num" if env.get(v) == "num" else "maybe") for v in vs}
                env2 = dict(env)
                for v in vs:
                    env2[v] = kinds[v]
                self.loopcount += 1
                ln = f"{self.fn.name}.pass" + ("" if self.loopcount == 1 else str(self.loopcount))
                free = [v for v in sorted(self.uses(s.test) | set().union(*[self.uses_stmt(x) for x in s.body]))
                        if env.get(v) in ("num", "int") and v not in vs]
                params = " ".join(f"({v} : {self.lean_ty(env[v])})" for v in free)
                upar = "(u : UnitSystem) " if self.selfcls else ""
                sty = " × ".join(self.lean_ty(kinds[v]) for v in vs)
                p, c = self.cond(s.test, env2)
                nx = lambda e, i2: ["  " * i2 + f"pure (.next {self.tup(vs, e, kinds)})"]
                bk = lambda e, i2: ["  " * i2 + f"pure (.brk {self.tup(vs, e, kinds)})"]
                body = [f"  if {c} then do"]
                body += self.block(s.body, env2, set(vs) | live_rest, nx, 2, bk)
                body += ["  else do"] + bk(env2, 2)
                txt = (f"/-- one pass of the `while` loop; state: {', '.join(vs)}.\n"
                       f"pyXSteam/{self.fn.fname}:{s.lineno}-{s.end_lineno} -/\n"
                       f"noncomputable def {ln} (F : FP) {upar}{params} :\n    ({sty}) → Py (Ctl ({sty}))\n"
                       f"  | {self.pat(vs)} => do\n" + "\n".join("  " + b for b in body) + "\n")
                self.fn.loops.append(txt)
                L.append(f"{sp}let {self.pat(vs)} ← whileLoop ({self.cls}.{ln} F {'u ' if self.selfcls else ''}{' '.join(free)}) {self.tup(vs, env, kinds)}")
                for v in vs:
                    env[v] = kinds[v]
                continue
            raise Exception(ast.dump(s))
        return L + k(env, ind)

    def uses_stmt(self, s):
        if self.skip(s) or self.is_log(s):
            return set()
        out = set()
        for n in ast.iter_child_nodes(s):
            if isinstance(n, ast.stmt):
                out |= self.uses_stmt(n)
            else:
                out |= self.uses(n)
        return out

    def run(self):
        self.append_rows, self.append_lines = {}, {}
        node = self.fn.node
        ps = [a.arg for a in node.args.args if a.arg != "self"]
        env = {p: ("hint" if p == "hint" else "num") for p in ps}
        body = self.block(node.body, env, set(), None, 1)
        par = " ".join(f"({p} : {'PyVal' if p == 'hint' else 'Num'})" for p in ps)
        up = " (u : UnitSystem)" if self.selfcls else ""
        ret = "ℤ" if self.ty == "int" else "Num"
        t = ""
        for tn, ty, txt, l1, l2 in self.fn.tables:
            t += f"/-- pyXSteam/{self.fn.fname}:{l1}-{l2} -/\ndef {tn} : {ty} :=\n  {wrap(txt)}\n\n"
        for x in self.fn.loops:
            t += x + "\n"
        t += f"/-- pyXSteam/{self.fn.fname}:{node.lineno}-{node.end_lineno} -/\n"
        t += f"noncomputable def {self.fn.name} (F : FP){up} {par}{' ' if par else ''}: Py {ret} := do\n" + "\n".join(body) + "\n"
        return t


def wrap(txt, w=96):
    out, line = [], ""
    for part in txt.replace("\n", " ").split(", "):
        p = part.strip()
        if len(line) + len(p) + 2 > w:
            out.append(line.rstrip())
            line = ""
        line += p + ", "
    out.append(line.rstrip(", "))
    return "\n   ".join(out)


def main():
    files = ["RegionBorders.py", "Regions.py", "RegionSelection.py", "TransportProperties.py",
             "IAPWS_R14.py", "IAPWS_R4.py", "UnitConverter.py", "XSteam.py", "XSteam_HW.py"]
    csrc = open(os.path.join(SRC, "Constants.py")).read()
    consts = {}
    for s in ast.parse(csrc).body:
        if isinstance(s, ast.Assign):
            t = num_lit(s.value, csrc)
            consts[s.targets[0].id] = ("int" if is_int_lit(s.value) else "rat", t, s.lineno)
    fns = {}
    extra = {}
    for f in files:
        src = open(os.path.join(SRC, f)).read()
        tree = ast.parse(src)
        for n in tree.body:
            if isinstance(n, ast.FunctionDef):
                ns = f[:-3]
                fns[(ns, n.name)] = Fn(ns, n, f, src)
            elif isinstance(n, ast.ClassDef):
                for m in n.body:
                    if isinstance(m, ast.FunctionDef) and m.name not in ("__init__", "__str__", "set_unitSystem"):
                        fns[(n.name, m.name)] = Fn(n.name, m, f, src)
            elif isinstance(n, ast.Assign) and f == "IAPWS_R14.py" and isinstance(n.value, ast.Constant):
                extra[n.targets[0].id.strip("_")] = (n.value.value, n.lineno)
    for fn in fns.values():
        fn.text = Comp(fn, consts).run()
    # dependency order
    order, seen = [], set()

    def visit(k, stack=()):
        if k in seen:
            return
        assert k not in stack, stack
        for d in sorted(fns[k].deps):
            visit(d, stack + (k,))
        seen.add(k)
        order.append(k)
    for k in fns:
        visit(k)
    groups = {"Units": [], "Kernels": [], "Select": [], "Transport": [], "Api": []}
    def grp(ns):
        return {"UnitConverter": "Units", "XSteam": "Api", "XSteam_HW": "Api", "TransportProperties": "Transport",
                "RegionSelection": "Select"}.get(ns, "Kernels")
    for k in order:
        groups[grp(k[0])].append(k)
    # Kernels is large: split off
    imports = {"Units": ["Verif.Model.UnitSystem"], "Kernels": ["Verif.Model.Constants"],
               "Select": ["Verif.Model.Kernels"], "Transport": ["Verif.Model.Select"],
               "Api": ["Verif.Model.Transport", "Verif.Model.Units"]}
    hdr = "-- Transcribed from the Python source by tools/py2lean.py; see the citation at each definition.\n"
    with open(os.path.join(OUT, "Constants.lean"), "w") as o:
        o.write(hdr + "import Verif.Model.Base\n\n/-! pyXSteam/Constants.py, and the ice type constants of IAPWS_R14.py -/\n\nnamespace PyX\n\nnamespace Constants\n\n")
        for c, (k, t, ln) in consts.items():
            o.write(f"/-- pyXSteam/Constants.py:{ln} -/\ndef {c.strip('_')} : {'ℤ' if k=='int' else 'ℚ'} := {lean_num(t)}\n\n")
        o.write("end Constants\n\nnamespace IAPWS_R14\n\n")
        for c, (v, ln) in extra.items():
            o.write(f"/-- pyXSteam/IAPWS_R14.py:{ln}, exported by pyXSteam/XSteam.py:28-32 -/\ndef {c} : ℤ := {v}\n\n")
        o.write("end IAPWS_R14\n\nend PyX\n")
    for g, ks in groups.items():
        with open(os.path.join(OUT, g + ".lean"), "w") as o:
            o.write(hdr + "".join(f"import {i}\n" for i in imports[g]) + "\nset_option linter.unusedVariables false\n\nnamespace PyX\n\nopen Classical\n\n")
            cur = None
            for ns, nm in ks:
                if ns != cur:
                    if cur:
                        o.write(f"end {cur}\n\n")
                    o.write(f"namespace {ns}\n\n")
                    cur = ns
                o.write(fns[(ns, nm)].text + "\n")
            o.write(f"end {cur}\n\nend PyX\n")
    # the public methods as one data type
    with open(os.path.join(OUT, "Calls.lean"), "w") as o:
        o.write(hdr + """import Verif.Model.Api

/-! Every public method of `XSteam` and `XSteam_HW` (prefix `hw_`) with its arguments. -/

namespace PyX

""")
        cs = []
        for ns, nm in sorted([k for k in fns if k[0] in ("XSteam", "XSteam_HW")], key=lambda k: (k[0], fns[k].node.lineno)):
            ps = [a.arg for a in fns[(ns, nm)].node.args.args if a.arg != "self"]
            cs.append((ns, nm, ps))
        o.write("/-- one call of a public method; pyXSteam/XSteam.py:41-2522, pyXSteam/XSteam_HW.py:32-100 -/\ninductive Call where\n")
        for ns, nm, ps in cs:
            c = nm if ns == "XSteam" else "hw_" + nm
            ty = "".join(f" ({q} : {'PyVal' if q == 'hint' else 'Num'})" for q in ps)
            o.write(f"  | {c}{ty}\n")
        o.write("\n/-- run a call on an instance with unit system `u` -/\nnoncomputable def Call.run (F : FP) (u : UnitSystem) : Call → Py Num\n")
        for ns, nm, ps in cs:
            c = nm if ns == "XSteam" else "hw_" + nm
            a = "".join(" " + q for q in ps)
            o.write(f"  | .{c}{a} => {ns}.{nm} F u{a}\n")
        o.write("\nend PyX\n")
    print({g: len(k) for g, k in groups.items()})


main()
