#!/usr/bin/env python3
"""Translate the assertions of /repo/tests into Lean examples about the model.

Only the text of the tests is read (with `ast`); nothing of /repo is imported or run.
The `>>>` examples of the docstrings and of docs/index.rst are translated too.
Usage: conformance.py /repo/tests OUTDIR
"""
import ast, os, sys, decimal, fractions

class Skip(Exception):
    pass

RELS = dict(EQ='eq', EQUAL_TO='eq', NE='ne', NOT_EQUAL_TO='ne', GT='gt', GRATHER_THAN='gt', GREATER_THAN='gt',
            GE='ge', GRATHER_THAN_OR_EQUAL_TO='ge', LT='lt', LESS_THAN='lt', LE='le', LESS_THAN_OR_EQUAL_TO='le',
            LIKE='like', NOT_LIKE='notLike', REGEXP='regexp', IN='in_', NOT_IN='notIn', IS='is', IS_NOT='isNot')
AGG = dict(Avg='avg', Count='count', Max='max', Min='min', Sum='sum')
SELOPT = dict(sql_cache='sqlCache', sql_no_cache='sqlNoCache', all='all', distinct='distinct',
              distinctrow='distinctrow', sql_small_result='sqlSmallResult', sql_big_result='sqlBigResult',
              sql_buffer_result='sqlBufferResult', sql_calc_found_rows='sqlCalcFoundRows',
              straight_join='straightJoin', high_priority='highPriority')
ERRS = dict(InvalidArgumentException='Err.isInvalidArgument', InvalidQueryException='(· == .invalidQuery)',
            SqlPuzzleException='Err.isSqlPuzzle', AssertionError='(· == .assertionError)')
FIXTURES = dict(select='select', insert='insert', update='update', delete='delete', where='where', having='having',
                tables='tables', columns='columns', values='values', order_by='orderBy', group_by='groupBy', limit='limit')
QUERIES = ('select', 'insert', 'update', 'delete')
INIT = dict(select='({} : Select)', insert='({} : Insert)', update='({} : Update)', delete='({} : Delete)',
            where='([] : List Cond)', having='([] : List Cond)', tables='([] : List Table)',
            columns='([] : List Column)', values='([] : List Value)', orderBy='([] : List Order)',
            groupBy='([] : List Order)', limit='({} : LimitS)')
NAMES = set()

def lstr(s):
    out = []
    for c in s:
        if c in '"\\':
            out.append('\\' + c)
        elif c == '\n':
            out.append('\\n')
        else:
            out.append(c)
    return 'L!"' + ''.join(out) + '"'

def dotted(e):
    if isinstance(e, ast.Name):
        return e.id
    if isinstance(e, ast.Attribute):
        b = dotted(e.value)
        return None if b is None else b + '.' + e.attr
    return None

class Gen:
    def __init__(self):
        self.lines = []
        self.kind = {}     # variable -> kind
        self.n = 0
        self.checks = []

    def emit(self, s):
        self.lines.append(s)

    def fresh(self):
        self.n += 1
        return f'x{self.n}'

    # ---- expressions that denote a Python value handed to the library
    def obj(self, e):
        if isinstance(e, ast.Constant):
            v = e.value
            if v is None: return '.none'
            if isinstance(v, bool): return f'.bool {str(v).lower()}'
            if isinstance(v, int): return f'.int {v}' if v >= 0 else f'.int ({v})'
            if isinstance(v, float):
                f = fractions.Fraction(v)
                k = f.denominator.bit_length() - 1
                return f'.float (.fin {str(v < 0).lower()} {abs(f.numerator)} (-{k}))'
            if isinstance(v, str): return f'.str {lstr(v)}'
            if isinstance(v, bytes): return f'.bytes [{", ".join(map(str, v))}]'
        if isinstance(e, ast.Tuple): return f'.tuple [{self.objs(e.elts)}]'
        if isinstance(e, ast.List): return f'.list [{self.objs(e.elts)}]'
        if isinstance(e, ast.Dict):
            return '.dict [' + ', '.join(f'({self.obj(k)}, {self.obj(v)})' for k, v in zip(e.keys, e.values)) + ']'
        if isinstance(e, ast.GeneratorExp):
            return f'.gen [{", ".join(".int %d" % i for i in self.ints(e))}]'
        v, k = self.value(e)
        if k in QUERIES: return f'.{k} {v}'
        if k == 'obj': return v
        raise Skip(f'argument of kind {k}')

    def ints(self, e):
        g = e.generators[0]
        assert len(e.generators) == 1 and not g.ifs and ast.dump(e.elt) == ast.dump(ast.Name(g.target.id, ast.Load()))
        it = g.iter
        if isinstance(it, ast.Tuple): return [c.value for c in it.elts]
        if isinstance(it, ast.Call) and dotted(it.func) == 'range': return list(range(it.args[0].value))
        raise Skip('generator')

    def objs(self, es):
        return ', '.join(self.obj(e) for e in es)

    def args(self, call):
        kw = []
        for k in call.keywords:
            if k.arg is None: raise Skip('**kwds')
            kw.append(f'({lstr(k.arg)}, {self.obj(k.value)})')
        if any(isinstance(a, ast.Starred) for a in call.args): raise Skip('*args')
        return f'⟨[{self.objs(call.args)}], [{", ".join(kw)}]⟩'

    def bind(self, term, kind):
        x = self.fresh()
        self.emit(f'let mut {x} ← {term}')
        self.kind[x] = kind
        return x, kind

    def pure(self, term, kind, ty=''):
        x = self.fresh()
        self.emit(f'let mut {x}{ty} := {term}')
        self.kind[x] = kind
        return x, kind

    # ---- expressions that denote a library object: (variable, kind)
    def value(self, e):
        if isinstance(e, ast.Name) and e.id in self.kind:
            return e.id, self.kind[e.id]
        if isinstance(e, ast.BinOp) and isinstance(e.op, (ast.BitOr, ast.BitAnd)):
            is_or = isinstance(e.op, ast.BitOr)
            l, lk = self.value(e.left); r, rk = self.value(e.right)
            a = f'(.{lk} {l})' if lk in QUERIES else l
            b = f'(.{rk} {r})' if rk in QUERIES else r
            q = lk in QUERIES or l in self.unions or self.union(e.left)
            if q: self.unions = self.unions + (f'x{self.n + 1}',)
            return self.bind(f'mkUnion {a} {b} {str(not is_or).lower()}' if q else
                             f'mkBinary .{"or" if is_or else "and"} {a} {b}', 'obj')
        if isinstance(e, ast.Call):
            return self.call(e)
        raise Skip('expression ' + ast.dump(e)[:60])

    def union(self, e):
        if isinstance(e, ast.BinOp): return self.union(e.left)
        if isinstance(e, ast.Name): return self.kind.get(e.id) in QUERIES or e.id in self.unions
        return False

    unions = ()

    def call(self, e):
        d = dotted(e.func)
        if d:
            last = d.split('.')[-1]
            mod = d.startswith('sqlpuzzle.') or '.' not in d
            if d.startswith('sqlpuzzle.relations.') and last in RELS:
                return self.bind(f'mkRel .{RELS[last]} [{self.objs(e.args)}]', 'obj')
            if mod and last in ('V', 'SqlValue'): return self.pure(f'.sqlValue ({self.obj(e.args[0])})', 'obj', ' : Obj')
            if mod and last in ('R', 'SqlReference'): return self.pure(f'.sqlRef ({self.obj(e.args[0])})', 'obj', ' : Obj')
            if mod and last in ('customsql', 'C'): return self.bind(f'mkCustom cx S ({self.obj(e.args[0])})', 'obj')
            if d == 'Q': return self.bind(f'mkConds cx S {self.args(e)}', 'obj')
            if d == 'Not': return self.bind(f'mkNot cx S {self.args(e)}', 'obj')
            if d == 'Exists': return self.pure(f'.exists_ ({self.obj(e.args[0])})', 'obj', ' : Obj')
            if d in AGG:
                a = e.args
                ex = self.obj(a[0]) if a else '.none'
                di = str(a[1].value).lower() if len(a) > 1 else 'false'
                return self.pure(f'mkFunc .{AGG[d]} {di} ({ex})', 'obj')
            if d == 'Concat': return self.bind(f'mkConcat S [{self.objs(e.args)}]', 'obj')
            if d in ('GroupConcat', 'sqlpuzzle.group_concat'): return self.bind(f'mkGroupConcat S [{self.objs(e.args)}]', 'obj')
            if d in ('Convert', 'sqlpuzzle.convert'):
                return self.bind(f'mkConvert cx S ({self.obj(e.args[0])}) ({self.obj(e.args[1]) if len(e.args) > 1 else ".none"})', 'obj')
            if d in ('sqlpuzzle.select', 'sqlpuzzle._queries.select.Select'): return self.bind(f'mkSelect S {self.args(e)}', 'select')
            if d == 'sqlpuzzle.select_from': return self.bind(f'mkSelectFrom cx S {self.args(e)}', 'select')
            if d == 'sqlpuzzle.insert': return self.pure('{}', 'insert', ' : Insert')
            if d == 'sqlpuzzle.insert_into': return self.bind(f'mkInsertInto cx S ({self.obj(e.args[0])})', 'insert')
            if d == 'sqlpuzzle.update': return self.bind(f'mkUpdate cx S ({self.obj(e.args[0])})', 'update')
            if d == 'sqlpuzzle.delete': return self.bind(f'mkDelete cx S [{self.objs(e.args)}]', 'delete')
            if d == 'sqlpuzzle.delete_from': return self.bind(f'mkDeleteFrom cx S {self.args(e)}', 'delete')
            if last == 'Decimal':
                sg, ds, ex = decimal.Decimal(e.args[0].value).as_tuple()
                return f'(.decimal (.fin {"true" if sg else "false"} {int("".join(map(str, ds)))} ({ex})))', 'obj'
            if last == 'date' and len(e.args) == 3:
                return f'(.date ⟨{", ".join(str(a.value) for a in e.args)}⟩)', 'obj'
            if last == 'datetime':
                v = [a.value for a in e.args] + [0] * (7 - len(e.args))
                return f'(.datetime ⟨⟨{v[0]}, {v[1]}, {v[2]}⟩, {v[3]}, {v[4]}, {v[5]}, {v[6]}, none⟩)', 'obj'
            if d == 'range':
                return f'(.range [{", ".join(str(i) for i in range(*[a.value for a in e.args]))}])', 'obj'
            if d in ('set', 'frozenset'):
                return f'(.{d} [{self.objs(e.args[0].elts) if e.args else ""}])', 'obj'
        if isinstance(e.func, ast.Attribute):
            recv, k = self.value(e.func.value)
            return self.method(recv, k, e.func.attr, e)
        raise Skip('call ' + str(d))

    def opt(self, e, i, dflt='.none'):
        return self.obj(e.args[i]) if len(e.args) > i else dflt

    def method(self, r, k, m, e):
        if m == 'copy' and not e.args: return self.pure(r, k)
        def step(f, op):
            self.emit(f'{r} ← call ({f} cx S {r} ({op}))')
            return r, k
        def part(t):
            self.emit(f'{r} ← call ({t})')
            return r, k
        allow = lambda: self.opt(e, 0, '.bool true')
        joins = dict(join='inner', inner_join='inner', left_join='left', right_join='right', full_join='full')
        if k == 'select':
            f = 'selectStep'
            if m in ('columns', 'where', 'having', 'on'):
                return step(f, f'.{m + ("_" if m == "where" else "")} {self.args(e)}')
            if m in ('from_', 'from_tables'): return step(f, f'.from_ {self.args(e)}')
            if m == 'from_table': return step(f, f'.fromTable ({self.obj(e.args[0])}) ({self.opt(e, 1)})')
            if m == 'group_by': return step(f, f'.groupBy {self.args(e)}')
            if m == 'order_by': return step(f, f'.orderBy {self.args(e)}')
            if m in joins: return step(f, f'.join .{joins[m]} ({self.obj(e.args[0])})')
            if m == 'limit': return step(f, f'.limit ({self.obj(e.args[0])}) ({self.opt(e, 1)})')
            if m == 'offset': return step(f, f'.offset ({self.obj(e.args[0])})')
            of = dict(into_outfile='file', fields_terminated_by='fields', lines_terminated_by='lines', optionally_enclosed_by='enclosed')
            if m in of: return step(f, f'.outfile .{of[m]} ({self.obj(e.args[0])})')
            if m in SELOPT: return step(f, f'.option .{SELOPT[m]} ({allow()})')
            if m == 'for_update': return step(f, f'.forUpdate ({allow()})')
        if k == 'insert':
            f = 'insertStep'
            if m == 'into': return step(f, f'.into ({self.obj(e.args[0])})')
            if m == 'values': return step(f, f'.values {self.args(e)}')
            if m == 'on_duplicate_key_update': return step(f, f'.onDuplicateKeyUpdate {self.args(e)}')
            if m == 'ignore': return step(f, f'.ignore ({allow()})')
        if k == 'update':
            f = 'updateStep'
            if m == 'table': return step(f, f'.table ({self.obj(e.args[0])})')
            if m in ('set', 'on'): return step(f, f'.{m} {self.args(e)}')
            if m == 'where': return step(f, f'.where_ {self.args(e)}')
            if m == 'allow_update_all': return step(f, '.allowUpdateAll')
            if m == 'forbid_update_all': return step(f, '.forbidUpdateAll')
            if m == 'ignore': return step(f, f'.ignore ({allow()})')
        if k == 'delete':
            f = 'deleteStep'
            if m in ('from_', 'from_tables'): return step(f, f'.from_ {self.args(e)}')
            if m == 'delete': return step(f, f'.delete [{self.objs(e.args)}]')
            if m == 'on': return step(f, f'.on {self.args(e)}')
            if m == 'where': return step(f, f'.where_ {self.args(e)}')
            if m == 'allow_delete_all': return step(f, '.allowDeleteAll')
            if m == 'forbid_delete_all': return step(f, '.forbidDeleteAll')
            if m == 'ignore': return step(f, f'.ignore ({allow()})')
        if k in ('update', 'delete'):
            js = dict(join='join', inner_join='join', left_join='leftJoin', right_join='rightJoin')
            if m in js: return step(f, f'.{js[m]} ({self.obj(e.args[0])})')
        if k in ('where', 'having') and m == 'where': return part(f'condsWhere cx S false {r} {self.args(e)}')
        if k == 'tables':
            if m == 'set': return part(f'tablesSet cx S {r} {self.args(e)}')
            if m == 'on': return part(f'tablesOn cx S {r} {self.args(e)}')
            if m in joins: return part(f'tablesJoin cx S {r} .{joins[m]} ({self.obj(e.args[0])})')
        if k == 'columns' and m == 'columns': return part(f'columnsAdd S {r} {self.args(e)}')
        if k == 'values' and m == 'set': return part(f'valuesSet cx S {r} {self.args(e)}')
        if k == 'orderBy' and m == 'order_by' or k == 'groupBy' and m == 'group_by':
            return part(f'ordersAdd cx S {r} {self.args(e)}')
        if k == 'limit':
            if m == 'limit': return part(f'limitLimit {r} ({self.obj(e.args[0])}) ({self.opt(e, 1)})')
            if m == 'offset': return part(f'limitOffset {r} ({self.obj(e.args[0])})')
        if k == 'obj':
            if m == 'distinct':
                self.emit(f'{r} := funcDistinct {r} ({allow()})')
                return r, k
            if m == 'order_by': return part(f'groupConcatOrderBy cx S {r} [{self.objs(e.args)}]')
            if m == 'separator': return part(f'groupConcatSeparator {r} ({self.obj(e.args[0])})')
            if m == 'to': return part(f'convertTo cx S {r} ({self.obj(e.args[0])})')
        raise Skip(f'method {k}.{m}')

    # ---- str, ==, has, is_set
    def text(self, e):
        if isinstance(e, ast.Call) and dotted(e.func) == 'str':
            v, k = self.value(e.args[0])
            t = self.fresh()
            txt = dict(obj=f'S.str {v}', where=f'condsText cx S L!"WHERE" {v}', having=f'condsText cx S L!"HAVING" {v}',
                       tables=f'tablesText cx S [] {v}', columns=f'columnsText cx S {v}', values=f'valuesText cx S [] {v}',
                       orderBy=f'ordersText cx S L!"ORDER BY" {v}', groupBy=f'ordersText cx S L!"GROUP BY" {v}',
                       limit=f'.ok (limitText {v})')
            src = f'S.str (.{k} {v})' if k in QUERIES else txt[k]
            self.emit(f'let {t} : Str ← {src}')
            if k in QUERIES: self.emit(f'{v} ← call ({k}Step cx S {v} .str)')
            if k == 'tables': self.emit(f'{v} ← call (strTables cx S {v})')
            return t
        if isinstance(e, ast.Constant) and isinstance(e.value, str):
            return lstr(e.value)
        raise Skip('text')

    def check(self, b):
        t = self.fresh()
        self.emit(f'let {t} : Bool ← {b}')
        self.checks.append(t)

    def neg(self, b):
        return f'(! ·) <$> {b}'

    def test(self, e, pos=True):
        w = (lambda b: b) if pos else self.neg
        if isinstance(e, ast.UnaryOp) and isinstance(e.op, ast.Not):
            return self.test(e.operand, not pos)
        if isinstance(e, ast.Compare) and len(e.ops) == 1:
            l, r, op = e.left, e.comparators[0], e.ops[0]
            if isinstance(op, ast.NotEq): return self.test(ast.Compare(l, [ast.Eq()], [r]), not pos)
            if isinstance(op, ast.Eq):
                if isinstance(l, ast.Call) and dotted(l.func) == 'parser':
                    b, k = self.parser(l)
                    rr = f'[{", ".join("[" + self.objs(t.elts) + "]" for t in r.elts)}]'
                    return self.check(w(f'eqListR (eqListR S.eq) {b} {rr}'))
                if isinstance(l, ast.Call) and dotted(l.func) == 'str':
                    a = self.text(l); b = self.text(r)
                    return self.check(w(f'(.ok ({a} == {b}) : R Bool)'))
                a, k = self.value(l)
                if isinstance(r, ast.Constant): b, k2 = f'(.str {lstr(r.value)})', 'obj'
                else: b, k2 = self.value(r)
                if k in QUERIES: return self.check(w(f'S.eq (.{k} {a}) (.{k2} {b})'))
                if k == 'obj': return self.check(w(f'S.eq {a} {b}'))
                eq = dict(where='condsEq cx S', having='condsEq cx S', tables='eqListR (tableEq cx S)',
                          columns='eqListR (columnEq S)', values='eqListR (valueEq cx S)',
                          orderBy='eqListR (orderEq S)', groupBy='eqListR (orderEq S)')
                if k in eq: return self.check(w(f'{eq[k]} {a} {b}'))
                if k == 'limit': return self.check(w(f'(.ok ({a} == {b}) : R Bool)'))
            if isinstance(op, ast.In):
                a = self.text(r); b = self.text(l)
                return self.check(w(f'(.ok (occurs {b} {a}) : R Bool)'))
        if isinstance(e, ast.Attribute) and e.attr == 'is_set':
            v, k = self.value(e.value)
            if k == 'columns': return self.check(w('(.ok true : R Bool)'))
            if k == 'limit': return self.check(w(f'(.ok {v}.isSet : R Bool)'))
            return self.check(w(f'(.ok (!{v}.isEmpty) : R Bool)'))
        if isinstance(e, ast.Call) and isinstance(e.func, ast.Attribute) and e.func.attr == 'has':
            v, k = self.value(e.func.value)
            n = lstr(e.args[0].value); x = self.opt(e, 1)
            if k in QUERIES: return self.check(w(f'{k}Has cx S {v} {n} ({x})'))
            if k == 'obj': return self.check(w(f'unionHas {n} ({x})'))
        raise Skip('assert ' + ast.dump(e)[:80])

    def parser(self, call):
        o = {k.value: v.value for k, v in zip(call.args[0].keys, call.args[0].values)}
        lo = ', '.join(f'{dict(min_items="minItems", max_items="maxItems", allow_dict="allowDict", allow_list="allowList")[k]} := {str(v).lower()}' for k, v in o.items())
        c = ast.Call(call.func, call.args[1:], call.keywords)
        return self.bind(f'parseArgs S {{ {lo} }} {self.args(c)}', 'batches')

    def stmt(self, s):
        if isinstance(s, ast.Assert):
            return self.test(s.test)
        if isinstance(s, ast.Expr) and isinstance(s.value, ast.Call):
            d = dotted(s.value.func)
            if d == 'str': return self.text(s.value)
            if d == 'parser': return self.parser(s.value)
            return self.value(s.value)
        if isinstance(s, ast.Assign) and len(s.targets) == 1 and isinstance(s.targets[0], ast.Name):
            n = s.targets[0].id
            if isinstance(s.value, (ast.Constant, ast.Dict)):
                self.emit(f'let {n} : Obj := {self.obj(s.value)}')
                self.kind[n] = 'obj'
                if isinstance(s.value, ast.Dict): self.dicts = dict(getattr(self, 'dicts', {}), **{n: s.value})
                return
            v, k = self.value(s.value)
            if self.union(s.value) and k == 'obj': self.unions = self.unions + (n,)
            self.emit(f'let mut {n} := {v}')
            if isinstance(s.value, ast.Call) and isinstance(s.value.func, ast.Attribute) and s.value.func.attr == 'copy' \
                    and isinstance(s.value.func.value, ast.Name) and s.value.func.value.id in self.unions:
                self.unions = self.unions + (n,)
            self.kind[n] = k
            return
        if isinstance(s, ast.AugAssign) and isinstance(s.op, ast.BitOr):
            v, k = self.value(ast.BinOp(ast.Name(s.target.id, ast.Load()), ast.BitOr(), s.value))
            self.emit(f'{s.target.id} := {v}')
            return
        if isinstance(s, ast.With):
            c = s.items[0].context_expr
            if dotted(c.func) == 'pytest.raises':
                err = dotted(c.args[0]).split('.')[-1]
                g = Gen(); g.kind = dict(self.kind); g.n = self.n + 100; g.unions = self.unions
                for t in s.body: g.stmt(t)
                assert not g.checks
                t = self.fresh()
                mod = [x for x in self.kind if any(l.startswith(f'{x} ') for l in g.lines)]
                sh = [f'let mut {x} := {x}' for x in mod]
                self.emit(f'let {t} : Bool := raises {ERRS[err]} (do')
                for l in sh + g.lines: self.emit('    ' + l)
                self.emit('    pure ())')
                self.checks.append(t)
                return
            if dotted(c.func) == 'mock.patch.object':
                self.backend = '.postgresql'
                for t in s.body: self.stmt(t)
                return
        raise Skip('statement ' + ast.dump(s)[:80])

    backend = '.sql'

def expand(node):
    """`**values` with a literal dictionary assigned just before."""
    lits = {}
    for s in node.body:
        if isinstance(s, ast.Assign) and isinstance(s.value, ast.Dict): lits[s.targets[0].id] = s.value
        for c in ast.walk(s):
            if isinstance(c, ast.Call):
                ks = []
                for k in c.keywords:
                    if k.arg is None and isinstance(k.value, ast.Name) and k.value.id in lits:
                        d = lits[k.value.id]
                        ks += [ast.keyword(a.value, b) for a, b in zip(d.keys, d.values)]
                    else: ks.append(k)
                c.keywords = ks

def translate(fn, consts):
    expand(fn)
    g = Gen()
    for a in fn.args.args:
        n = a.arg
        if n == 'self': continue
        if n in ('sqlite', 'mysql', 'postgresql'): g.backend = '.' + n
        elif n in ('select1', 'select2'):
            g.emit(f'let mut {n} ← mkSelectFrom cx S ⟨[.str L!"t{n[-1]}"], []⟩'); g.kind[n] = 'select'
        elif n in FIXTURES:
            g.emit(f'let mut {n} := {INIT[FIXTURES[n]]}'); g.kind[n] = FIXTURES[n]
        else: raise Skip('fixture ' + n)
    for s in fn.body: g.stmt(s)
    # names that are Lean keywords
    return g

LEAN_KW = ('where', 'having', 'set', 'values_', 'limit')
def lean_names(line, names):
    import re
    parts = re.split(r'(L!"(?:[^"\\]|\\.)*")', line)
    for i in range(0, len(parts), 2):
        for n in names:
            parts[i] = re.sub(rf'(?<![\w.]){n}(?![\w])', n + "'", parts[i])
    return ''.join(parts)

def doc_examples(repo, skipped):
    """Blocks of `>>>` lines followed by `<Class: text>` or a traceback."""
    res = []
    files = ['docs/index.rst']
    for d, _, fs in sorted(os.walk(os.path.join(repo, 'sqlpuzzle'))):
        files += [os.path.relpath(os.path.join(d, f), repo) for f in sorted(fs) if f.endswith('.py')]
    for rel in files:
        lines = open(os.path.join(repo, rel), encoding='utf-8').read().split('\n')
        i = 0
        while i < len(lines):
            if not lines[i].strip().startswith('>>>'):
                i += 1
                continue
            start, src = i, []
            while lines[i].strip().startswith('>>>'):
                src.append(lines[i].strip()[4:])
                i += 1
            want = []
            while lines[i].strip() and not lines[i].strip().startswith(('>>>', '"""')):
                want.append(lines[i].strip())
                i += 1
            g = Gen()
            g.backend = '.mysql' if rel.endswith('sqlvalue.py') else '.sql'
            try:
                body = ast.parse('\n'.join(src)).body
                expr = body[-1].value
                if want[0].startswith('Traceback'):
                    err = dict(ERRS, ConfirmDeleteAllException='(· == .confirmDeleteAll)', ConfirmUpdateAllException='(· == .confirmUpdateAll)')[want[-1].split(':')[0]]
                    inner = Gen()
                    for s in body[:-1]: inner.stmt(s)
                    inner.text(ast.Call(ast.Name('str', ast.Load()), [expr], []))
                    g.emit(f'let x0 : Bool := raises {err} (do')
                    for l in inner.lines: g.emit('    ' + l)
                    g.emit('    pure ())')
                    g.checks.append('x0')
                else:
                    text = ' '.join(want)
                    assert text.startswith('<') and text.endswith('>')
                    text = text[text.index(':') + 1:-1].strip()
                    for s in body[:-1]: g.stmt(s)
                    t = g.text(ast.Call(ast.Name('str', ast.Load()), [expr], []))
                    g.check(f'(.ok ({t} == {lstr(text)}) : R Bool)')
            except (Skip, SyntaxError, AssertionError) as e:
                skipped.append(f'{rel}:{start + 1} {e}')
                continue
            g.emit('pure (' + ' && '.join(g.checks) + ')')
            res.append(f'-- {rel}:{start + 1}\nexample : passes {g.backend} (fun cx S => do\n' +
                       '\n'.join('  ' + lean_names(l, ('where',)) for l in g.lines) + ') := by decide +kernel\n')
    return res

def main():
    root, out = sys.argv[1:3]
    total = done = 0
    skipped = []
    mods = []
    for d, _, fs in sorted(os.walk(root)):
        for f in sorted(fs):
            if not f.startswith('test_') or not f.endswith('.py'): continue
            path = os.path.join(d, f); rel = os.path.relpath(path, os.path.dirname(root))
            tree = ast.parse(open(path, encoding='utf-8').read())
            body = []
            def visit(fn, prefix):
                nonlocal total, done
                total += 1
                try:
                    g = translate(fn, {})
                    if not g.checks: 
                        g.emit('pure true'); res = None
                    else: g.emit('pure (' + ' && '.join(g.checks) + ')')
                except Skip as e:
                    skipped.append(f'{rel}:{fn.lineno} {prefix}{fn.name}: {e}')
                    return
                names = ('where',) + tuple(x for x in g.kind if x in ('select', 'insert', 'update', 'delete', 'having', 'tables', 'columns', 'values', 'limit', 'union', 'convert', 'concat'))
                body.append(f'-- {rel}:{fn.lineno} {prefix}{fn.name}\nexample : passes {g.backend} (fun cx S => do\n' +
                            '\n'.join('  ' + lean_names(l, names) for l in g.lines) + ') := by decide +kernel\n')
                done += 1
            for n in tree.body:
                if isinstance(n, ast.FunctionDef) and n.name.startswith('test'): visit(n, '')
                if isinstance(n, ast.ClassDef):
                    for k in n.body:
                        if isinstance(k, ast.FunctionDef) and k.name.startswith('test'): visit(k, n.name + '.')
            if body:
                m = ''.join(w.capitalize() for w in f[5:-3].split('_'))
                mods.append(m)
                with open(os.path.join(out, m + '.lean'), 'w', encoding='utf-8') as h:
                    h.write('import Verif.Conformance.Harness\n\n/-!\nGenerated by tools/conformance.py from ' + rel +
                            '.  Each example is one test of the repository, run on the model.\n-/\n\nset_option linter.unusedVariables false\n\nnamespace SqlPuzzle.Conformance\nopen SqlPuzzle\n\n' +
                            '\n'.join(body) + '\nend SqlPuzzle.Conformance\n')
    docs = doc_examples(os.path.dirname(root), skipped)
    mods.append('Docs')
    with open(os.path.join(out, 'Docs.lean'), 'w', encoding='utf-8') as h:
        h.write('import Verif.Conformance.Harness\n\n/-!\nGenerated by tools/conformance.py from the examples in the documentation of the library.\n-/\n\n'
                'set_option linter.unusedVariables false\n\nnamespace SqlPuzzle.Conformance\nopen SqlPuzzle\n\n' + '\n'.join(docs) + '\nend SqlPuzzle.Conformance\n')
    print(len(docs), 'documentation examples')
    print(f'{done} of {total} tests; modules: {" ".join(mods)}')
    for s in skipped: print('skipped', s)

main()
