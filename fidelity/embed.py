#!/usr/bin/env python3
"""Translate functions of /repo into the syntax of lean/Verif/PyCore/Syntax.lean.

The text of the modules is parsed with the standard library; nothing of /repo is imported or executed.
Output: lean/Verif/Source/*.lean, one file per module of /repo, and lean/Verif/Source.lean with the whole program.

    python3 fidelity/embed.py [--check] [repo]

With --check nothing is written; exit status 1 if a file is not what would be written.

What is dropped: docstrings, comments, annotations, __all__, module level logging set-up, the cause of an exception (raise … from …).
What is rewritten:
  a < b < c                    a < b and b < c                (b must be a name)
  match x: case k: ...         $m = x; if $m == k: ... else ...
  for a, b in e: ...           for $t in e: a, b = $t; ...
  assert c, m                  if not c: raise AssertionError(m)
  yield e                      $out.append(e), with $out = [] at the beginning and return $out at the end
  @decorator def f             the function that the decorator returns, with f in the place of its argument
  __name in a class            _Class__name
  x = [e for a in A for b in B] $c = []; for a in A: for b in B: $c.append(e); x = $c   (a, b are not used elsewhere)
  def g inside of f            g = f.g, g as a function of its own (it must not use variables of f)
  jdumps(x, indent=i, allow_nan=True, ensure_ascii=False)   jdumps(x, i)
  enumerate(x, start=k)        enumerate(x, k)
  (e for a, b in A)            (e' for $g in A), e' is e with $g[0] for a and $g[1] for b
Anything else that is not in the syntax is an error.
"""
import ast
import os
import sys
from fractions import Fraction

REPO = "/repo"
OUT = os.path.join(os.path.dirname(os.path.abspath(__file__)), "..", "lean", "Verif")

# module of /repo, Lean module, definitions that are left out
MODULES = [
    ("utilities/bits.py", "Bits", []),
    ("utilities/CRC24Q.py", "CRC24Q", []),
    ("utilities/RTCM_utilities.py", "RtcmUtilities", []),
    ("gnss_types/data_class_methods.py", "DataClassMethods",
     ["DataClassMethods.__compare", "DataClassMethods.compare", "DataClassMethods.len", "DEF_FLOAT_CMP_TOLR"]),
    ("gnss_types/ephemeris.py", "Ephemeris", []),
    ("gnss_types/base_station.py", "BaseStation", []),
    ("gnss_types/observables.py", "Observables",
     ["_ObservablesHdrMSM._make_example", "_ObservablesObs.__make_example"]),
    ("sub_decoders/RTCM_EPH.py", "RtcmEph", []),
    ("sub_decoders/RTCM_BASE.py", "RtcmBase", []),
    ("sub_decoders/RTCM_MSM.py", "RtcmMsm", []),
    ("decoder_top.py", "DecoderTop", []),
    ("printers/json_printer.py", "JsonPrinter",
     ["__OBS_M123", "__OBS_M4567", "JSON_SPEC", "PrintJSON", "JSONCore.is_json_dataclass"]),
    ("printers/margo_printer.py", "MargoPrinter", ["PrintMARGO", "MargoCore.format_obs_string", "MargoCore.make_header"]),
]

BUILTINS = ["int", "str", "float", "len", "range", "tuple", "hex", "bytes", "next", "isinstance", "type", "super",
            "setattr", "getattr", "dict", "set", "enumerate"]
IMPORTED_BUILTINS = {"math": "math", "copy": "copy", "fields": "fields", "asdict": "asdict", "dumps": "json.dumps"}
IGNORED_IMPORTS = {"Any", "zip_longest", "dataclass", "is_dataclass", "Iterable", "field",
                   "SubDecoderInterface", "TDG", "SubPrinterInterface", "io", "os"}
KEYWORDS = ["indent", "allow_nan=True", "ensure_ascii=False"]   # of jdumps
LIB_EXC = ["AssertionError", "NotImplementedError"]

BINOP = {ast.Add: "add", ast.Sub: "sub", ast.Mult: "mul", ast.Div: "div", ast.Pow: "pow", ast.LShift: "shl",
         ast.RShift: "shr", ast.BitAnd: "band", ast.BitOr: "bor", ast.BitXor: "bxor"}
CMPOP = {ast.Eq: "eq", ast.NotEq: "ne", ast.Lt: "lt", ast.LtE: "le", ast.Gt: "gt", ast.GtE: "ge", ast.Is: "is",
         ast.IsNot: "isNot", ast.In: "mem", ast.NotIn: "notMem"}


class Unsupported(Exception):
    pass


def fail(node, why):
    raise Unsupported(f"line {getattr(node, 'lineno', '?')}: {why}: {ast.dump(node)[:200] if isinstance(node, ast.AST) else node}")


def lit(text):
    out = '"'
    for ch in text:
        if ch in '"\\':
            out += "\\" + ch
        elif ch == "\n":
            out += "\\n"
        elif 32 <= ord(ch) < 127:
            out += ch
        else:
            raise Unsupported(f"character {ch!r}")
    return out + '"'


def s(name):
    """An identifier."""
    return "n!" + lit(name)


def lst(items):
    return "[" + ", ".join(items) + "]"


def mangle(name, cls):
    if cls and name.startswith("__") and not name.endswith("__"):
        return "_" + cls.lstrip("_") + name
    return name


class Fn:
    """Translation of one function."""

    def __init__(self, prog, mod, cls, qual):
        self.prog, self.mod, self.cls, self.qual = prog, mod, cls, qual
        self.subst = {}
        self.tmp = 0

    def fresh(self, p):
        self.tmp += 1
        return f"${p}{self.tmp}" if self.tmp > 1 else f"${p}"

    # expressions
    def const(self, node, v):
        if v is None:
            return ".none"
        if isinstance(v, bool):
            return f".bool {str(v).lower()}"
        if isinstance(v, int):
            return f".int {v}"
        if isinstance(v, float):
            f = Fraction(ast.get_source_segment(self.mod.text, node).replace("_", ""))
            return f".flt {f.numerator} {f.denominator}"
        if isinstance(v, str):
            return f".str {lit(v)}"
        if isinstance(v, bytes):
            return f".bytes {lst([str(b) for b in v])}"
        fail(node, "literal")

    def e(self, n):
        if isinstance(n, ast.Constant):
            return f".const ({self.const(n, n.value)})"
        if isinstance(n, ast.Name):
            x = self.subst.get(n.id, mangle(n.id, self.cls))
            self.mod.used.add(x)
            return f".name {s(x)}"
        if isinstance(n, ast.Attribute):
            return f".attr ({self.e(n.value)}) {s(mangle(n.attr, self.cls))}"
        if isinstance(n, ast.Call):
            if len(n.args) == 1 and isinstance(n.args[0], ast.Starred):
                if not (isinstance(n.args[0].value, ast.Name) and len(n.keywords) == 1 and n.keywords[0].arg is None):
                    fail(n, "call")
                return f".callStar ({self.e(n.func)}) {s(n.args[0].value.id)}"
            if isinstance(n.func, ast.Name) and n.func.id == "enumerate" and [k.arg for k in n.keywords] == ["start"] and len(n.args) == 1:
                return f".call ({self.e(n.func)}) {self.es([n.args[0], n.keywords[0].value])}"
            if n.keywords:
                kw = [k.arg if k.arg == "indent" else f"{k.arg}={ast.unparse(k.value)}" for k in n.keywords]
                if not (isinstance(n.func, ast.Name) and n.func.id == "jdumps" and kw == KEYWORDS and len(n.args) == 1):
                    fail(n, "keywords")
                return f".call ({self.e(n.func)}) {self.es([n.args[0], n.keywords[0].value])}"
            return f".call ({self.e(n.func)}) {self.es(n.args)}"
        if isinstance(n, ast.BinOp):
            return f".bin .{BINOP[type(n.op)]} ({self.e(n.left)}) ({self.e(n.right)})"
        if isinstance(n, ast.UnaryOp):
            if isinstance(n.op, ast.USub):
                return f".neg ({self.e(n.operand)})"
            if isinstance(n.op, ast.Not):
                return f".not ({self.e(n.operand)})"
            fail(n, "operator")
        if isinstance(n, ast.BoolOp):
            op = "and" if isinstance(n.op, ast.And) else "or"
            out = self.e(n.values[-1])
            for v in reversed(n.values[:-1]):
                out = f".{op} ({self.e(v)}) ({out})"
            return out
        if isinstance(n, ast.Compare):
            left, parts = n.left, []
            for op, right in zip(n.ops, n.comparators):
                parts.append(f".cmp .{CMPOP[type(op)]} ({self.e(left)}) ({self.e(right)})")
                left = right
            if len(parts) > 1 and not all(isinstance(x, ast.Name) for x in n.comparators[:-1]):
                fail(n, "comparison chain")
            out = parts[-1]
            for p in reversed(parts[:-1]):
                out = f".and ({p}) ({out})"
            return out
        if isinstance(n, ast.IfExp):
            return f".ite ({self.e(n.test)}) ({self.e(n.body)}) ({self.e(n.orelse)})"
        if isinstance(n, ast.Tuple):
            return f".tuple {self.es(n.elts)}"
        if isinstance(n, ast.List):
            return f".list {self.es(n.elts)}"
        if isinstance(n, ast.Dict):
            if any(k is None for k in n.keys):
                fail(n, "dict")
            return f".dict {self.es(n.keys)} {self.es(n.values)}"
        if isinstance(n, ast.Subscript):
            if isinstance(n.slice, ast.Slice):
                if n.slice.step is not None:
                    fail(n, "slice")
                lo = self.e(n.slice.lower) if n.slice.lower else ".const .none"
                hi = self.e(n.slice.upper) if n.slice.upper else ".const .none"
                return f".slice ({self.e(n.value)}) ({lo}) ({hi})"
            return f".index ({self.e(n.value)}) ({self.e(n.slice)})"
        if isinstance(n, (ast.GeneratorExp, ast.ListComp)):
            kind = "gen" if isinstance(n, ast.GeneratorExp) else "listComp"
            if len(n.generators) == 1 and isinstance(n.generators[0].target, ast.Tuple):
                n = self.pairs(n)
            x, it, cond = self.comp(n)
            return f".{kind} ({self.e(n.elt)}) {s(x)} ({it}) ({cond})"
        if isinstance(n, ast.DictComp):
            x, it, cond = self.comp(n)
            if n.generators[0].ifs:
                fail(n, "comprehension")
            return f".dictComp ({self.e(n.key)}) ({self.e(n.value)}) {s(x)} ({it})"
        if isinstance(n, ast.JoinedStr):
            vals = []
            for v in n.values:
                if isinstance(v, ast.FormattedValue):
                    if v.format_spec is not None:
                        fail(n, "format")
                    vals.append(v.value)
            return f".fstr {self.es(vals)}"
        fail(n, "expression")

    def pairs(self, n):
        g = n.generators[0]
        x = self.fresh("g")
        at = {y.id: i for i, y in enumerate(g.target.elts)}

        class Rewrite(ast.NodeTransformer):
            def visit_Name(self, m):
                if m.id not in at:
                    return m
                return ast.copy_location(ast.Subscript(ast.Name(x, ast.Load()), ast.Constant(at[m.id]), ast.Load()), m)

        if g.ifs or g.is_async:
            fail(n, "comprehension")
        return ast.GeneratorExp(Rewrite().visit(n.elt), [ast.comprehension(ast.Name(x, ast.Store()), g.iter, [], 0)])

    def comp(self, n):
        if len(n.generators) != 1:
            fail(n, "comprehension")
        g = n.generators[0]
        if g.is_async or len(g.ifs) > 1 or not isinstance(g.target, ast.Name):
            fail(n, "comprehension")
        cond = self.e(g.ifs[0]) if g.ifs else ".const (.bool true)"
        return g.target.id, self.e(g.iter), cond

    def comp2(self, n, t):
        gs = n.value.generators
        if not isinstance(t, ast.Name) or any(g.is_async or g.ifs or not isinstance(g.target, ast.Name) for g in gs):
            fail(n, "comprehension")
        inside = {id(x) for x in ast.walk(n.value)}
        for g in gs:
            if any(isinstance(x, ast.Name) and x.id == g.target.id and id(x) not in inside for x in ast.walk(self.node)):
                fail(n, "comprehension variable")
        x = self.fresh("c")
        add = f'.expr (.call (.attr (.name {s(x)}) n!"append") [{self.e(n.value.elt)}])'
        inner = f".for ({self.t(gs[1].target)}) ({self.e(gs[1].iter)}) [{add}] []"
        return [f".assign (.name {s(x)}) (.list [])",
                f".for ({self.t(gs[0].target)}) ({self.e(gs[0].iter)}) [{inner}] []",
                f".assign ({self.t(t)}) (.name {s(x)})"]

    def es(self, ns):
        return lst([self.e(n) for n in ns])

    # targets
    def t(self, n):
        if isinstance(n, ast.Name):
            return f".name {s(mangle(n.id, self.cls))}"
        if isinstance(n, ast.Attribute):
            return f".attr ({self.e(n.value)}) {s(mangle(n.attr, self.cls))}"
        if isinstance(n, ast.Subscript) and not isinstance(n.slice, ast.Slice):
            return f".index ({self.e(n.value)}) ({self.e(n.slice)})"
        fail(n, "target")

    # statements: lists of strings, with indentation
    def block(self, ns, ind):
        out = []
        for n in ns:
            out += self.st(n, ind)
        return self.fmt(out, ind)

    def fmt(self, items, ind):
        if not items:
            return "[]"
        pad = "  " * ind
        return "[\n" + ",\n".join(pad + "  " + i for i in items) + "]"

    def st(self, n, ind):
        i = ind + 1
        if isinstance(n, ast.Expr):
            if isinstance(n.value, ast.Constant) and isinstance(n.value.value, str):
                return []
            if isinstance(n.value, ast.Yield):
                return [f'.expr (.call (.attr (.name n!"$out") n!"append") [{self.e(n.value.value)}])']
            return [f".expr ({self.e(n.value)})"]
        if isinstance(n, ast.Assign):
            if len(n.targets) != 1:
                fail(n, "assignment")
            t = n.targets[0]
            if isinstance(n.value, ast.ListComp) and len(n.value.generators) == 2:
                return self.comp2(n, t)
            if isinstance(t, ast.Tuple):
                return [f".unpack {lst([self.t(x) for x in t.elts])} ({self.e(n.value)})"]
            return [f".assign ({self.t(t)}) ({self.e(n.value)})"]
        if isinstance(n, ast.AnnAssign):
            if n.value is None:
                return []
            return [f".assign ({self.t(n.target)}) ({self.e(n.value)})"]
        if isinstance(n, ast.AugAssign):
            return [f".aug ({self.t(n.target)}) .{BINOP[type(n.op)]} ({self.e(n.value)})"]
        if isinstance(n, ast.Return):
            return [f".ret ({self.e(n.value) if n.value else '.const .none'})"]
        if isinstance(n, ast.Raise):
            if n.exc is None or not (n.cause is None or isinstance(n.cause, ast.Name)):
                fail(n, "raise")
            return [f".raise ({self.e(n.exc)})"]
        if isinstance(n, ast.Assert):
            self.mod.used.add("AssertionError")
            m = self.es([n.msg]) if n.msg else "[]"
            return [f'.ite (.not ({self.e(n.test)})) [.raise (.call (.name n!"AssertionError") {m})] []']
        if isinstance(n, ast.If):
            return [f".ite ({self.e(n.test)}) {self.block(n.body, i)} {self.block(n.orelse, i)}"]
        if isinstance(n, ast.For):
            if isinstance(n.target, ast.Tuple):
                x = self.fresh("t")
                pre = [f'.unpack {lst([self.t(y) for y in n.target.elts])} (.name {s(x)})']
                tgt = f".name {s(x)}"
            else:
                pre, tgt = [], self.t(n.target)
            body = pre
            for b in n.body:
                body = body + self.st(b, i)
            return [f".for ({tgt}) ({self.e(n.iter)}) {self.fmt(body, i)} {self.block(n.orelse, i)}"]
        if isinstance(n, ast.While):
            return [f".while ({self.e(n.test)}) {self.block(n.body, i)} {self.block(n.orelse, i)}"]
        if isinstance(n, ast.Try):
            if n.finalbody:
                fail(n, "finally")
            hs = []
            for h in n.handlers:
                if not isinstance(h.type, ast.Name):
                    fail(n, "except")
                nm = f"(some {s(h.name)})" if h.name else "none"
                hs.append(f".mk {s(h.type.id)} {nm} {self.block(h.body, i + 1)}")
            return [f".try {self.block(n.body, i)} {self.fmt(hs, i)} {self.block(n.orelse, i)}"]
        if isinstance(n, ast.Match):
            x = self.fresh("m")
            out = "[]"
            for c in reversed(n.cases):
                if c.guard is not None:
                    fail(n, "case")
                if isinstance(c.pattern, ast.MatchAs) and c.pattern.pattern is None and c.pattern.name is None:
                    out = self.block(c.body, i)
                elif isinstance(c.pattern, ast.MatchValue):
                    body = self.block(c.body, i)
                    test = f".cmp .eq (.name {s(x)}) ({self.e(c.pattern.value)})"
                    out = f"[.ite ({test}) {body} {out}]"
                else:
                    fail(n, "case")
            out = out[1:-1] if out.startswith("[.ite") else out
            return [f".assign (.name {s(x)}) ({self.e(n.subject)})", out]
        if isinstance(n, ast.Delete):
            if len(n.targets) != 1 or not isinstance(n.targets[0], ast.Subscript):
                fail(n, "del")
            t = n.targets[0]
            return [f".del ({self.e(t.value)}) ({self.e(t.slice)})"]
        if isinstance(n, ast.Pass):
            return [".pass"]
        if isinstance(n, ast.Break):
            return [".brk"]
        if isinstance(n, ast.Continue):
            return [".cont"]
        if isinstance(n, ast.FunctionDef):
            qual = self.qual + "." + n.name
            free = {x.id for x in ast.walk(n) if isinstance(x, ast.Name)}
            own = {a.arg for a in n.args.args}
            outer = {x.id for x in ast.walk(self.node) if isinstance(x, ast.Name) and isinstance(x.ctx, ast.Store)}
            outer |= {a.arg for a in self.node.args.args}
            if (free & outer) - own:
                fail(n, "closure")
            self.prog.function(self.mod, n, self.cls, qual)
            self.prog.glob(qual, f".fn {s(qual)}")
            return [f".assign (.name {s(n.name)}) (.name {s(qual)})"]
        fail(n, "statement")


class Mod:
    def __init__(self, path, lean, skip):
        self.path, self.lean, self.skip = path, lean, skip
        with open(os.path.join(REPO, path), encoding="utf-8") as f:
            self.text = f.read()
        self.tree = ast.parse(self.text)
        self.defs = []      # (kind, lean name, text)
        self.used = set()


def lean_name(qual):
    t = "".join(c if c.isalnum() or c == "_" else "_" for c in qual.replace("__", "_P_"))
    while "__" in t:
        t = t.replace("__", "_")
    return t.strip("_")


class Program:
    def __init__(self):
        self.mods = []
        self.fns = []       # (qual, lean name)
        self.classes = []
        self.globals = {}
        self.trees = {}
        self.bases = {}
        self.decorators = {}
        self.members = {}
        self.mros = {}
        self.fields = {}
        self.data = {}

    def glob(self, name, val):
        if name in self.globals and self.globals[name] != val:
            raise Unsupported(f"global {name} bound twice")
        self.globals[name] = val

    def emit_fn(self, mod, qual, params, defaults, star, body, lines):
        name = "fn_" + lean_name(qual)
        if name in [n for _, n in self.fns]:
            raise Unsupported(f"{name} twice")
        self.fns.append((qual, name))
        txt = f"/-- `{qual}`, {mod.path}:{lines}. -/\ndef {name} : FnDef where\n  params := {lst([s(p) for p in params])}\n"
        txt += f"  defaults := {lst(defaults)}\n"
        if star:
            txt += "  star := true\n"
        txt += f"  body := {body}\n"
        mod.defs.append(txt)

    def function(self, mod, n, cls, qual):
        """Translate a function; returns the kind of member."""
        kind, decos = "method", []
        for d in n.decorator_list:
            if isinstance(d, ast.Name) and d.id == "classmethod":
                kind = "clsMethod"
            elif isinstance(d, ast.Name) and d.id == "staticmethod":
                kind = "static"
            elif isinstance(d, ast.Name) and d.id == "property":
                kind = "prop"
            elif isinstance(d, ast.Name) and d.id in self.decorators:
                decos.append(d.id)
            else:
                fail(d, "decorator")
        if len(decos) > 1:
            fail(n, "decorators")
        a = n.args
        if a.vararg or a.kwarg or a.kwonlyargs or a.posonlyargs:
            fail(n, "parameters")
        inner = qual + "$undecorated" if decos else qual
        f = Fn(self, mod, cls, qual)
        f.node = n
        defaults = []
        for d in a.defaults:
            if not isinstance(d, ast.Constant):
                fail(d, "default")
            defaults.append(f.const(d, d.value))
        body = n.body
        if any(isinstance(x, ast.Yield) for x in ast.walk(n)):
            items = ['.assign (.name n!"$out") (.list [])']
            for b in body:
                items += f.st(b, 1)
            items.append('.ret (.name n!"$out")')
            text = f.fmt(items, 1)
        else:
            text = f.block(body, 1)
        lines = f"{n.lineno}-{n.end_lineno}"
        self.emit_fn(mod, inner, [x.arg for x in a.args], defaults, False, text, lines)
        if decos:
            dmod, d = self.decorators[decos[0]]
            w = [x for x in d.body if isinstance(x, ast.FunctionDef)]
            r = [x for x in d.body if isinstance(x, ast.Return)]
            if len(w) != 1 or len(r) != 1 or r[0].value.id != w[0].name:
                fail(d, "decorator")
            w = w[0]
            if w.args.args or not w.args.vararg or not w.args.kwarg:
                fail(d, "decorator")
            g = Fn(self, dmod, None, qual)
            g.node = w
            g.subst = {d.args.args[0].arg: inner}
            self.glob(inner, f".fn {s(inner)}")
            self.emit_fn(mod, qual, [w.args.vararg.arg], [], True, g.block(w.body, 1),
                         f"{lines} in the wrapper of {dmod.path}:{d.lineno}-{d.end_lineno}")
        return kind

    def mro(self, c):
        """Linearisation; with no class inherited twice it is depth first."""
        out = [c]
        for b in self.bases.get(c, []):
            out += self.mro(b)
        if len(set(out)) != len(out):
            raise Unsupported(f"diamond in {c}")
        return out

    def klass(self, mod, n):
        c = n.name
        is_data = False
        for d in n.decorator_list:
            if isinstance(d, ast.Name) and d.id == "dataclass":
                is_data = True
            elif isinstance(d, ast.Call) and isinstance(d.func, ast.Name) and d.func.id == "dataclass":
                is_data = True
            else:
                fail(d, "class decorator")
        members, fields = [], []
        f = Fn(self, mod, c, c)
        for b in n.body:
            if isinstance(b, ast.Expr) and isinstance(b.value, ast.Constant):
                continue
            if isinstance(b, ast.FunctionDef):
                if f"{c}.{b.name}" in mod.skip:
                    continue
                kind = self.function(mod, b, c, f"{c}.{b.name}")
                members.append((mangle(b.name, c), f".{kind} {s(f'{c}.{b.name}')}"))
            elif isinstance(b, ast.AnnAssign) and is_data:
                if isinstance(b.value, ast.Constant):
                    fields.append((b.target.id, f".const ({f.const(b.value, b.value.value)})"))
                elif isinstance(b.value, ast.Call) and b.value.func.id == "field" and len(b.value.keywords) == 1 \
                        and b.value.keywords[0].arg == "default_factory" and b.value.keywords[0].value.id == "dict":
                    fields.append((b.target.id, ".emptyDict"))
                else:
                    fail(b, "field")
            elif isinstance(b, (ast.Assign, ast.AnnAssign)):
                t = b.targets[0] if isinstance(b, ast.Assign) else b.target
                members.append((mangle(t.id, c), f".value ({f.e(b.value)})"))
            else:
                fail(b, "class body")
        mro = self.mro(c)
        is_exc = "Exception" in mro
        mro = [x for x in mro if x not in ("Exception", "object")]
        name = "cls_" + lean_name(c)
        self.classes.append((c, name))
        self.members[c] = members
        self.mros[c] = mro
        self.fields[c] = fields
        self.data[c] = (is_data, is_exc)
        pad = ",\n    "
        txt = f"/-- `{c}`, {mod.path}:{n.lineno}-{n.end_lineno}. -/\ndef {name} : ClassDef where\n"
        txt += f"  mro := {lst([s(x) for x in mro])}\n"
        txt += f"  members := [{pad.join(f'({s(k)}, {v})' for k, v in members)}]\n"
        txt += f"  fields := [{pad.join(f'({s(k)}, {v})' for k, v in fields)}]\n"
        txt += f"  isData := {str(is_data).lower()}\n  isExc := {str(is_exc).lower()}\n"
        mod.defs.append(txt)

    def load(self, path, lean, skip):
        mod = Mod(path, lean, skip)
        self.mods.append(mod)
        for n in mod.tree.body:
            if isinstance(n, ast.Expr) and isinstance(n.value, ast.Constant):
                continue
            if isinstance(n, ast.Import):
                for a in n.names:
                    if a.name == "gnss_types":
                        mod.used.add("$modul " + (a.asname or a.name))
                        self.moduls.append(a.asname or a.name)
                    elif a.name in IMPORTED_BUILTINS:
                        self.glob(a.asname or a.name, f".builtin {s(IMPORTED_BUILTINS[a.name])}")
                    elif a.name not in IGNORED_IMPORTS:
                        fail(n, "import")
                continue
            if isinstance(n, ast.ImportFrom):
                for a in n.names:
                    x = a.asname or a.name
                    if a.name == "*" or x in IGNORED_IMPORTS or a.name in IGNORED_IMPORTS:
                        continue
                    if n.module == "logger":
                        self.glob(x, ".logger")
                    elif a.name in IMPORTED_BUILTINS:
                        self.glob(x, f".builtin {s(IMPORTED_BUILTINS[a.name])}")
                    elif a.name not in self.globals and a.name not in self.decorators:
                        fail(n, f"import of {a.name}")
                continue
            if isinstance(n, ast.Assign) and n.targets[0].id in ["__all__"] + skip:
                continue
            if isinstance(n, ast.Assign) and isinstance(n.value, ast.Constant) and isinstance(n.targets[0], ast.Name):
                f = Fn(self, mod, None, "")
                self.glob(n.targets[0].id, f".const ({f.const(n.value, n.value.value)})")
                continue
            if isinstance(n, (ast.ClassDef, ast.FunctionDef)) and n.name in skip:
                continue
            if isinstance(n, ast.ClassDef):
                self.bases[n.name] = [b.id for b in n.bases]
                self.glob(n.name, f".cls {s(n.name)}")
                self.klass(mod, n)
                continue
            if isinstance(n, ast.FunctionDef):
                inner = [b for b in n.body if isinstance(b, ast.FunctionDef)]
                rets = [b for b in n.body if isinstance(b, ast.Return)]
                if inner and rets and isinstance(rets[0].value, ast.Name) and rets[0].value.id == inner[0].name:
                    self.decorators[n.name] = (mod, n)
                    continue
                self.glob(n.name, f".fn {s(n.name)}")
                self.function(mod, n, None, n.name)
                continue
            fail(n, "module level")

    moduls: list = []


def build():
    p = Program()
    for b in BUILTINS:
        p.glob(b, f".builtin {s(b)}")
    for c in LIB_EXC:
        p.glob(c, f".cls {s(c)}")
    types = []
    for m in MODULES:
        before = set(p.globals)
        p.load(*m)
        if m[0].startswith("gnss_types/"):
            types += sorted(x for x in set(p.globals) - before if not x.startswith("_") and x not in BUILTINS
                            and p.globals[x].startswith(".cls"))
    for x in p.moduls:
        p.glob(x, f".modul {lst([s(t) for t in types])}")
    out = {}
    for m in p.mods + [strategies(p)]:
        txt = f"import Verif.PyCore.Syntax\n\n/-!\n# {m.path}\n\nGenerated by fidelity/embed.py from the text of the module."
        if m.skip:
            txt += " Left out:\n" + ", ".join(f"`{x}`" for x in m.skip) + "."
        txt += "\n-/\n\nnamespace Verif\nnamespace PyCore\nnamespace Src\n\n" + "\n".join(m.defs)
        txt += "\nend Src\nend PyCore\nend Verif\n"
        out[f"Source/{m.lean}.lean"] = txt
    txt = "".join(f"import Verif.Source.{m.lean}\n" for m in p.mods)
    txt += "\n/-!\n# The program\n\nGenerated by fidelity/embed.py.\n-/\n\nnamespace Verif\nnamespace PyCore\n\nopen Src\n\n"
    pad = ",\n    "
    exc = [f'({s(c)}, {{ mro := [{s(c)}], members := [], fields := [], isData := false, isExc := true }})' for c in LIB_EXC]
    txt += "/-- The functions, classes and global names of the modules in Verif/Source. -/\ndef src : Prog where\n"
    txt += f"  fns := [{pad.join(f'({s(q)}, {n})' for q, n in p.fns)}]\n"
    txt += f"  classes := [{pad.join([f'({s(q)}, {n})' for q, n in p.classes] + exc)}]\n"
    txt += f"  globals := [{pad.join(f'({s(k)}, {v})' for k, v in p.globals.items())}]\n"
    txt += "\nend PyCore\nend Verif\n"
    out["Source/Program.lean"] = txt
    txt = "import Verif.PyCore.Rules\nimport Verif.Source.Program\n\n/-!\n# What the names of the program are bound to\n\n"
    txt += "Generated by fidelity/embed.py.\n-/\n\nnamespace Verif\nnamespace PyCore\nnamespace Look\n\nvariable [Rounding]\n\n"
    for q, n in p.fns:
        txt += f"theorem {n} : src.fns.lookup {s(q)} = some Src.{n} := rfl\n"
    for c, n in p.classes:
        txt += f"theorem {n} : src.classes.lookup {s(c)} = some Src.{n} := rfl\n"
    for c in LIB_EXC:
        txt += f"theorem lib_{c} : src.classes.lookup {s(c)} =\n    some {{ mro := [{s(c)}], members := [], fields := [], isData := false, isExc := true }} := rfl\n"
    for k, v in p.globals.items():
        txt += f"@[pyrun] theorem glob_{lean_name(k)} : src.globals.lookup {s(k)} = some ({v}) := rfl\n"
    for c, _ in p.classes:
        seen = set()
        for b in p.mros[c]:
            for k, v in p.members[b]:
                if k not in seen:
                    seen.add(k)
                    if v.startswith(".value (.dict") or v.startswith(".value (.list"):
                        txt += (f"@[pyrun] theorem own_{lean_name(c)}_{lean_name(k)} (call : CallT) (st : St) :\n"
                                f"    ownAttr src call {s(c)} {s(k)} (findMember src {s(c)} {s(k)}) st = (.ok (.stat {s(b)} {s(k)}), st) := rfl\n"
                                f"@[pyrun] theorem memv_{lean_name(c)}_{lean_name(k)} (call : CallT) (self : Val) (st : St) :\n"
                                f"    memberVal src call {s(c)} {s(k)} self (findMember src {s(c)} {s(k)}) st = (.ok (.stat {s(b)} {s(k)}), st) := rfl\n")
                    else:
                        txt += f"@[pyrun] theorem mem_{lean_name(c)}_{lean_name(k)} : findMember src {s(c)} {s(k)} =\n    some ({s(b)}, {v}) := rfl\n"
    for c, _ in p.classes:
        is_data, is_exc = p.data[c]
        ms = {}
        for b in p.mros[c]:
            for k, v in p.members[b]:
                ms.setdefault(k, v)
        name = f"@[pyrun] theorem new_{lean_name(c)}"
        if is_exc:
            txt += f"{name} (call : CallT) (args : List Val) (st : St) :\n    construct src call {s(c)} args st = (.ok (.exc {s(c)}), st) := rfl\n"
        elif is_data:
            fs = {}
            for b in reversed(p.mros[c]):
                for k, v in p.fields[b]:
                    fs[k] = v
            post = ms.get("__post_init__")
            last = f"M.call call {post.split(' ', 1)[1]} [.ref a] >>= fun _ => M.pure (.ref a)" if post else "M.pure (.ref a)"
            txt += f"theorem fields_{lean_name(c)} : dataFields src {s(c)} =\n    [" + ",\n      ".join(f"({s(k)}, {v})" for k, v in fs.items()) + "] := rfl\n"
            txt += f"{name} (call : CallT) (st : St) :\n    construct src call {s(c)} [] st =\n      M.seq (M.alloc (.inst {s(c)} []) st) (fun a => M.mapList fieldVal (dataFields src {s(c)}) >>= fun fs =>\n        M.write a (.inst {s(c)} fs) >>= fun _ => {last}) := rfl\n"
        else:
            init = ms.get("__init__")
            if init:
                txt += f"{name} (call : CallT) (args : List Val) (st : St) :\n    construct src call {s(c)} args st =\n      M.seq (M.alloc (.inst {s(c)} []) st) (fun a => M.call call {init.split(' ', 1)[1]} (.ref a :: args) >>= fun _ => M.pure (.ref a)) := rfl\n"
            else:
                txt += f"{name} (call : CallT) (st : St) :\n    construct src call {s(c)} [] st =\n      M.seq (M.alloc (.inst {s(c)} []) st) (fun a => M.pure (.ref a)) := rfl\n"
    for c in LIB_EXC:
        txt += f"@[pyrun] theorem new_{c} (call : CallT) (args : List Val) (st : St) :\n    construct src call {s(c)} args st = (.ok (.exc {s(c)}), st) := rfl\n"
    txt += "\nend Look\nend PyCore\nend Verif\n"
    out["Source/Lookup.lean"] = txt
    return out


def strategies(p):
    """The decoding parts of the strategies of converter_top.py. `conv = Converter()` is rewritten to `decoder = DecoderTop()`, which
    `Converter.__init__` executes, and `conv.decoder` to `decoder`; the part ends where `conv.printer` is first mentioned, and the rest
    must not mention a variable of it but `conv.printer` and `conv`. The keyword `bare_data` is the parameter after `self`."""
    mod = Mod("converter_top.py", "ConverterTop", [])
    top = {n.name: n for n in mod.tree.body if isinstance(n, (ast.ClassDef, ast.FunctionDef))}
    init = [b for b in top["Converter"].body if isinstance(b, ast.FunctionDef) and b.name == "__init__"][0]
    if [ast.unparse(b) for b in init.body] != ["self.decoder = DecoderTop()", "self.printer = PrinterTop()"]:
        fail(init, "Converter.__init__")
    keyword = {n.name: [b for b in n.body if isinstance(b, ast.FunctionDef) and b.name == "__init__"][0].args.args[1].arg
               for m in p.mods for n in m.tree.body if isinstance(n, ast.ClassDef) and n.name.startswith("Subdecoder")}

    class Rewrite(ast.NodeTransformer):
        def visit_Attribute(self, n):
            if isinstance(n.value, ast.Name) and n.value.id == "conv":
                if n.attr != "decoder":
                    fail(n, "strategy")
                return ast.copy_location(ast.Name("decoder", n.ctx), n)
            return self.generic_visit(n)

        def visit_Call(self, n):
            n = self.generic_visit(n)
            if n.keywords:
                if n.args or len(n.keywords) != 1 or keyword.get(ast.unparse(n.func)) != n.keywords[0].arg:
                    fail(n, "strategy")
                n = ast.copy_location(ast.Call(n.func, [n.keywords[0].value], []), n)
            return n

    factory = [b for b in top["ConverterFactory"].body if isinstance(b, ast.Assign) and b.targets[0].id == "__FACTORY"][0].value
    items = []
    for k, v in zip(factory.keys, factory.values):
        n = top[v.id]
        body = [b for b in n.body if not (isinstance(b, ast.Expr) and isinstance(b.value, ast.Constant))]
        if ast.unparse(body[0]) != "conv = Converter()":
            fail(n, "strategy")
        end = [i for i, b in enumerate(body) if "conv.printer" in ast.unparse(b)][0]
        own = {x.id for b in body[:end] for x in ast.walk(b) if isinstance(x, ast.Name) and isinstance(x.ctx, ast.Store)} - {"conv"}
        for b in body[end:]:
            if any(isinstance(x, ast.Name) and x.id in own for x in ast.walk(b)) or "conv.decoder" in ast.unparse(b):
                fail(b, "strategy")
        if ast.unparse(body[-1]) != "return conv":
            fail(n, "strategy")
        f = Fn(p, mod, None, v.id)
        f.node = n
        out = [f'.assign (.name {s("decoder")}) (.call (.name {s("DecoderTop")}) [])']
        for b in body[1:end]:
            out += f.st(ast.fix_missing_locations(Rewrite().visit(b)), 2)
        out.append(f'.ret (.name {s("decoder")})')
        lines = f"{body[0].lineno}-{body[end - 1].end_lineno}"
        mod.defs.append(f"/-- Decoding part of `{v.id}`, converter_top.py:{lines}. -/\ndef decoding_{v.id} : List Stmt := {f.fmt(out, 1)}\n")
        items.append(f"({lit(k.value)}, decoding_{v.id})")
    mod.defs.append(f"/-- The modes of `ConverterFactory`, converter_top.py:{factory.lineno}-{factory.end_lineno}. -/\n"
                    f"def decoding : List (String × List Stmt) := {f.fmt(items, 1)}\n")
    return mod


def main():
    global REPO
    args = [a for a in sys.argv[1:] if a != "--check"]
    if args:
        REPO = args[0]
    out = build()
    bad = 0
    for name, txt in out.items():
        path = os.path.join(OUT, name)
        if "--check" in sys.argv:
            old = open(path, encoding="utf-8").read() if os.path.exists(path) else None
            if old != txt:
                print("differs:", name)
                bad = 1
        else:
            os.makedirs(os.path.dirname(path), exist_ok=True)
            with open(path, "w", encoding="utf-8") as f:
                f.write(txt)
    sys.exit(bad)


main()
