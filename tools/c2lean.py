#!/usr/bin/env python3
"""Transcribe the C sources of libiff into Lean syntax trees.

This is a parser only: it reads /repo/src/libiff (and join.c, pp.c, main.c of the tools, and hello.c, bye.c,
test.c of tests) as text and prints one Lean term per function, macro, struct and static object.  Conversions, evaluation and memory are
defined in Lean (Verif/Src/Sem.lean).

Usage: python3 tools/c2lean.py [/repo] [outdir]   (default outdir: lean/Verif/Src/Code)

What it does besides parsing:
 - comments and #include lines are dropped; #if IFF_BIG_ENDIAN == 1 becomes the statement `endian`;
 - object-like macros become Lean definitions of the same name, IFF_MAKEID a Lean function;
 - typedef names are replaced by the types they stand for, `const` and `static` are dropped;
 - a local variable that shadows another one is renamed (`group` -> `group_1`);
 - a local variable whose address is taken, or that is an array or a struct, is marked as an object;
 - two static functions with the same name get the file as a prefix (`form_subChunkCheck`);
 - the static objects of tests/test.c get the prefix `test_`, and the macro of defaultregistry.h that is used there
   is expanded;
 - functions with variable argument lists (IFF_error, IFF_printIndent) are left to Sem.lean;
 - main.c of a tool is read three times: as with HAVE_GETOPT_H == 1 (`iffpp_main`), as without
   (`iffpp_mainPosix`), and as with _MSC_VER (`iffpp_mainMsvc`);
 - PACKAGE_NAME and PACKAGE_VERSION are replaced by what configure.ac makes of them, the constants of
   getopt.h by their values, and a 0 that initialises a pointer by a null pointer.
"""
import re, sys, os
from itertools import cycle

REPO = sys.argv[1] if len(sys.argv) > 1 else '/repo'
OUT = sys.argv[2] if len(sys.argv) > 2 else os.path.join(os.path.dirname(__file__), '..', 'lean', 'Verif', 'Src', 'Code')
LIB = os.path.join(REPO, 'src/libiff')
HEADERS = ['ifftypes.h.in', 'id.h', 'chunk.h', 'group.h', 'form.h', 'cat.h', 'prop.h', 'list.h', 'rawchunk.h',
           'chunkregistry.h', 'field.h', 'defaultregistry.h']
SOURCES = ['libiff/error.c', 'libiff/io.c', 'libiff/id.c', 'libiff/field.c', 'libiff/chunkregistry.c', 'libiff/chunk.c',
           'libiff/rawchunk.c', 'libiff/group.c', 'libiff/form.c', 'libiff/cat.c', 'libiff/prop.c',
           'libiff/list.c', 'libiff/defaultregistry.c', 'libiff/iff.c', 'iffjoin/join.c', 'iffpp/pp.c',
           '../tests/hello.c', '../tests/bye.c', '../tests/test.c']
TESTS = ['hello.h', 'bye.h', 'test.h']
# test programs that are run on any file
PROGRAMS = ['validiff.c', 'invalidiff.c', 'checkextension.c', 'ppextension.c']
# test data, each with the programs that write and read them
DATA = {'formdata.c': ['writeform.c', 'readform.c'], 'formdata-pad.c': ['writeform-pad.c', 'readform-pad.c'],
        'catdata.c': ['writecat.c', 'readcat.c'], 'nestedformdata.c': ['writenestedform.c', 'readnestedform.c'],
        'listdata.c': ['writelist.c', 'readlist.c']}
# test programs that search in these files
DATA.update((f, []) for f in ['searchforms-form.c', 'searchforms-cat.c', 'searchforms-nestedform.c', 'lookupproperty-simple.c',
                               'lookupproperty-prop.c', 'lookupproperty-override.c', 'lookupproperty-nested.c'])
# functions of the C library, and the functions with variable argument lists
PRIMS = ['malloc', 'calloc', 'realloc', 'free', 'memcpy', 'memcmp', 'strlen', 'bsearch', 'fgetc', 'fputc', 'fread',
         'fwrite', 'fseek', 'fopen', 'fclose', 'printf', 'fprintf', 'puts', 'strcmp', 'getopt', 'getopt_long', 'IFF_error',
         'IFF_printIndent']
# (file, HAVE_GETOPT_H, _MSC_VER, suffix of the names, functions that are the same in the first variant)
MAINS = [('iffjoin/main.c', 1, 0, '', []), ('iffjoin/main.c', 0, 0, 'Posix', ['printUsage', 'printVersion']),
         ('iffjoin/main.c', 0, 1, 'Msvc', ['printVersion']),
         ('iffpp/main.c', 1, 0, '', []), ('iffpp/main.c', 0, 0, 'Posix', ['printUsage', 'printVersion']),
         ('iffpp/main.c', 0, 1, 'Msvc', ['printVersion'])]
CONST = {'no_argument': 0, 'required_argument': 1, 'optional_argument': 2}
TEXT = {'PACKAGE_NAME': re.search(r'AC_INIT\(\[(\w+)\]', open(os.path.join(REPO, 'configure.ac')).read()).group(1),
        'PACKAGE_VERSION': open(os.path.join(REPO, 'version')).read().strip()}
VARIADIC = {'IFF_error', 'IFF_printIndent', 'IFF_errorCallbackStderr'}

TOK = re.compile(r'''
  (?P<ws>\s+) | (?P<num>0[xX][0-9a-fA-F]+|\d+) | (?P<id>[A-Za-z_]\w*) |
  (?P<chr>'(?:\\.|[^'\\])') | (?P<str>"(?:\\.|[^"\\])*") |
  (?P<op>->|\+\+|--|<<=|>>=|<<|>>|<=|>=|==|!=|&&|\|\||\+=|-=|\*=|/=|%=|&=|\|=|\.\.\.|[-+*/%&|^~!<>=?:;,.(){}\[\]])
''', re.X)


class Tok:
    def __init__(self, k, t, line): self.k, self.t, self.line = k, t, line
    def __repr__(self): return self.t


def strip_comments(s):
    return re.sub(r'/\*.*?\*/', lambda m: '\n' * m.group(0).count('\n'), s, flags=re.S)


def tokenize(s, line=1):
    out, i = [], 0
    while i < len(s):
        m = TOK.match(s, i)
        if not m: raise SyntaxError('line %d: %r' % (line, s[i:i+30]))
        if m.lastgroup != 'ws': out.append(Tok(m.lastgroup, m.group(0), line))
        line += m.group(0).count('\n')
        i = m.end()
    return out


EXTEND = 'IFF_EXTEND_DEFAULT_REGISTRY_WITH_FORM_CHUNK_TYPES'
macros = {}        # object-like: name -> tokens
defined = {}       # the same for each file
macro_order = []


def preprocess(path, defs=None):
    """Tokens of a file; macros are recorded; endianness conditionals become the tokens #big #little #end.
    Conditionals on the macros in `defs` are resolved."""
    toks, depth = [], []
    src = strip_comments(open(path).read())
    src = re.sub(r'\\\n', '  \x00', src)
    line = 1
    for l in src.split('\n'):
        n = l.count('\x00')
        l = l.replace('\x00', ' ')
        st = l.strip()
        if st.startswith('#'):
            d = st[1:].strip()
            m = re.match(r'define\s+(\w+)(\(?)', d)
            c = re.match(r'(if|elif)\s+(HAVE_GETOPT_H == 1|_MSC_VER)$', d)
            if defs and c:
                v = bool(defs[c.group(2).split()[0]])
                if c.group(1) == 'if': depth.append([v, v])
                else: depth[-1] = [v and not depth[-1][1], v or depth[-1][1]]
            elif defs and d == 'else': depth[-1] = [not depth[-1][1], True]
            elif d.startswith('if ') and 'IFF_BIG_ENDIAN' in d:
                toks.append(Tok('pp', '#big', line)); depth.append('e')
            elif re.match(r'if', d):
                depth.append('skip' if 'cplusplus' in d else 'x')
            elif d.startswith('else'):
                assert depth[-1] == 'e'
                toks.append(Tok('pp', '#little', line))
            elif d.startswith('endif'):
                if depth.pop() == 'e': toks.append(Tok('pp', '#end', line))
            elif m:
                name, rest = m.group(1), d[m.end():].strip()
                if name == EXTEND: macros[EXTEND] = (d[m.end():d.index(')')].replace(',', ' ').split(), rest[rest.index(')') + 1:])
                if m.group(2) != '(' and rest and '@' not in rest:
                    macros[name] = defined[(name, path)] = tokenize(rest, line)
                    macro_order.append((name, path, line))
            elif d.startswith('include'): pass
            else: raise SyntaxError(st)
        elif 'skip' not in depth and not any(isinstance(x, list) and not x[0] for x in depth):
            toks += [Tok('str', '"%s"' % TEXT[x.t], x.line) if x.t in TEXT else x for x in tokenize(l, line)]
        line += 1 + n
    return toks

# ---------------------------------------------------------------- types

typedefs = {}      # name -> type
structs = {}       # name -> [(member, type)]
enums = {}
BASE = {'void': 'void', 'char': 'char', 'short': 'short', 'int': 'int', 'long': 'long'}
typedefs['size_t'] = ('int', 'size')
typedefs['FILE'] = ('file',)
typedefs['va_list'] = ('void',)


def is_type(t):
    return t.k == 'id' and (t.t in BASE or t.t in typedefs or t.t in ('const', 'unsigned', 'struct', 'static', 'extern', 'enum'))


class Parser:
    def __init__(self, toks, fname):
        self.t, self.i, self.fname = toks, 0, fname
        self.funs, self.globs = [], []

    def peek(self, o=0): return self.t[self.i + o] if self.i + o < len(self.t) else Tok('eof', '<eof>', 0)
    def at(self, s): return self.peek().t == s and self.peek().k not in ('str', 'chr')
    def next(self):
        x = self.t[self.i]; self.i += 1; return x
    def eat(self, s):
        x = self.next()
        if x.t != s: raise SyntaxError('%s:%d: expected %s, got %s' % (self.fname, x.line, s, x.t))
        return x
    def opt(self, s):
        if self.at(s): self.i += 1; return True
        return False

    # declaration specifiers
    def specs(self):
        static, unsigned, base = False, False, None
        while True:
            x = self.peek()
            if x.t in ('const',): self.next()
            elif x.t == 'static': static = True; self.next()
            elif x.t == 'extern': self.next(); static = 'extern'
            elif x.t == 'unsigned': unsigned = True; self.next()
            elif x.t == 'struct':
                self.next(); base = ('struct', self.next().t)
            elif base is None and x.t in BASE: base = BASE[self.next().t]
            elif base is None and x.k == 'id' and x.t in typedefs: base = typedefs[self.next().t]
            else: break
        if isinstance(base, str):
            if base == 'void': base = ('void',)
            else: base = ('int', {'char': 'uchar', 'short': 'ushort', 'int': 'uint'}[base] if unsigned else base)
        elif unsigned: base = ('int', 'uint')
        assert base is not None, (self.fname, self.peek().line, self.peek().t)
        return static, base

    def declarator(self, ty):
        while self.at('*') or self.at('const'):
            if self.next().t == '*': ty = ('ptr', ty)
        if self.at('(') and self.peek(1).t == '*':
            self.eat('('); self.eat('*'); name = self.next().t; self.eat(')')
            self.params()
            return name, ('fn',)
        name = None
        if self.peek().k == 'id': name = self.next().t
        while self.opt('['):
            n = None if self.at(']') else int(self.next().t)
            self.eat(']')
            ty = ('arr', n, ty)
        return name, ty

    def params(self):
        self.eat('(')
        ps = []
        if self.at('void') and self.peek(1).t == ')': self.next()
        while not self.at(')'):
            if self.opt('...'): ps.append('...')
            else:
                _, b = self.specs()
                nm, ty = self.declarator(b)
                if ty[0] == 'arr': ty = ('ptr', ty[2])
                ps.append((nm, ty))
            self.opt(',')
        self.eat(')')
        return ps

    # top level
    def unit(self):
        while self.i < len(self.t):
            if self.opt(';'): continue
            if self.at('typedef'):
                self.next()
                if self.at('enum'):
                    self.next(); self.eat('{')
                    while not self.opt('}'):
                        n = self.next().t; self.eat('='); enums[n] = int(self.next().t); self.opt(',')
                    typedefs[self.next().t] = ('int', 'uint'); self.eat(';')
                    continue
                if self.at('struct') and self.peek(1).t == '{':
                    self.next(); self.eat('{')
                    ms = []
                    while not self.opt('}'):
                        _, b = self.specs()
                        ms.append(self.declarator(b)); self.eat(';')
                    nm = self.next().t
                    structs[nm] = ms; typedefs[nm] = ('struct', nm); self.eat(';')
                    continue
                _, b = self.specs()
                nm, ty = self.declarator(b)
                typedefs[nm] = ty; self.eat(';')
                continue
            if self.at('struct') and self.peek(2).t == '{':
                self.next(); nm = self.next().t; self.eat('{')
                ms = []
                while not self.opt('}'):
                    _, b = self.specs()
                    ms.append(self.declarator(b)); self.eat(';')
                structs[nm] = ms; self.eat(';')
                continue
            start = self.peek().line
            static, b = self.specs()
            nm, ty = self.declarator(b)
            if self.at('('):
                ps = self.params()
                if self.opt(';'): continue
                if '...' in ps or nm in VARIADIC:
                    self.skip_block()
                    continue
                f = Function(nm, static, ty, ps, self, start)
                self.funs.append(f)
            elif self.opt('='):
                init = self.initialiser()
                end = self.eat(';').line
                self.globs.append((nm, ty, init, start, end))
            else: self.eat(';')

    def skip_block(self):
        self.eat('{'); d = 1
        while d:
            x = self.next()
            d += (x.t == '{') - (x.t == '}')

    def initialiser(self):
        if self.at(EXTEND):
            line = self.next().line
            self.eat('(')
            args = []
            while not self.opt(')'):
                args.append(self.next().t); self.opt(',')
            ps, body = macros[EXTEND]
            self.t[self.i:self.i] = [Tok(x.k, args[ps.index(x.t)], line) if x.t in ps else x for x in tokenize(body, line)]
        if self.opt('{'):
            xs = []
            while not self.opt('}'):
                xs.append(self.initialiser()); self.opt(',')
            return xs
        return Expr(self, None).assign()

# ---------------------------------------------------------------- expressions

BIN = [{'|': 'bor'}, {'^': 'bxor'}, {'&': 'band'}, {'==': 'eq', '!=': 'ne'}, {'<': 'lt', '>': 'gt', '<=': 'le', '>=': 'ge'},
       {'<<': 'shl', '>>': 'shr'}, {'+': 'add', '-': 'sub'}, {'*': 'mul', '/': 'div', '%': 'mod'}]
ESC = {'n': '\n', '0': '\0', 't': '\t', '\\': '\\', "'": "'", '"': '"'}


def unesc(s):
    return re.sub(r'\\(.)', lambda m: ESC[m.group(1)], s)


class Expr:
    def __init__(self, p, fn): self.p, self.fn = p, fn

    def expr(self): return self.assign()

    def assign(self):
        a = self.lor()
        p = self.p
        if p.opt('='): return ('assign', a, self.assign())
        for o, n in (('+=', 'add'), ('-=', 'sub'), ('|=', 'bor')):
            if p.opt(o): return ('assignOp', n, a, self.assign())
        return a

    def lor(self):
        a = self.land()
        while self.p.opt('||'): a = ('lor', a, self.land())
        return a

    def land(self):
        a = self.bin(0)
        while self.p.opt('&&'): a = ('land', a, self.bin(0))
        return a

    def bin(self, l):
        if l == len(BIN): return self.unary()
        a = self.bin(l + 1)
        while self.p.peek().k == 'op' and self.p.peek().t in BIN[l]:
            o = BIN[l][self.p.next().t]
            a = ('bin', o, a, self.bin(l + 1))
        return a

    def typename(self):
        _, b = self.p.specs()
        _, ty = self.p.declarator(b)
        return ty

    def unary(self):
        p = self.p
        if p.opt('!'): return ('not', self.unary())
        if p.opt('-'): return ('neg', self.unary())
        if p.opt('*'): return ('deref', self.unary())
        if p.opt('&'):
            e = self.unary()
            if e[0] == 'fn': return e
            if self.fn: self.fn.addressed(e)
            return ('addr', e)
        if p.at('sizeof'):
            p.next(); p.eat('('); ty = self.typename(); p.eat(')')
            return ('sizeof', ty)
        if p.at('(') and is_type(p.peek(1)):
            p.eat('('); ty = self.typename(); p.eat(')')
            return ('cast', ty, self.unary())
        return self.postfix()

    def args(self, n=None):
        p = self.p
        p.eat('(')
        xs = []
        while not p.opt(')'):
            xs.append(self.assign()); p.opt(',')
        return xs

    def postfix(self):
        p = self.p
        e = self.primary()
        while True:
            if p.at('('): e = ('call', e, self.args())
            elif p.opt('->'): e = ('arrow', e, p.next().t)
            elif p.opt('.'): e = ('dot', e, p.next().t)
            elif p.opt('['):
                i = self.expr(); p.eat(']'); e = ('index', e, i)
            elif p.opt('++'): e = ('inc', e)
            else: return e

    def primary(self):
        p = self.p
        x = p.next()
        if x.t == '(' and x.k == 'op':
            e = self.expr(); p.eat(')'); return e
        if x.k == 'num':
            n = int(x.t, 0)
            return ('num', 'int' if n < 2**31 else 'uint', n)
        if x.k == 'chr': return ('num', 'int', ord(unesc(x.t[1:-1])))
        if x.k == 'str':
            s = unesc(x.t[1:-1])
            while p.peek().k == 'str': s += unesc(p.next().t[1:-1])
            return ('str', s)
        assert x.k == 'id', (p.fname, x.line, x.t)
        if self.fn and self.fn.lookup(x.t): return ('var', self.fn.lookup(x.t))
        if x.t in CONST: return ('num', 'int', CONST[x.t])
        if x.t in ('optarg', 'optind'): return (x.t,)
        if x.t == 'NULL': return ('null',)
        if x.t == 'EOF': return ('eof',)
        if x.t == 'SEEK_CUR': return ('seekCur',)
        if x.t in ('stdin', 'stdout', 'stderr'): return ('stream', x.t)
        if x.t == 'IFF_MAKEID': return ('makeid', self.args())
        if p.fname in DATA and any(x.t == n for n, _, _ in macro_order): return ('macro', stem(p.fname) + '_' + x.t)
        if x.t in macros: return ('macro', x.t)
        if x.t in enums: return ('enum', x.t)
        if p.fname == 'test.c' and 'test_' + x.t in globals_names: return ('glob', 'test_' + x.t)
        if x.t in globals_names: return ('glob', x.t)
        if p.fname in DATA and any(x.t == g[0] for g in p.globs): return ('glob', stem(p.fname) + '_' + x.t)
        return ('fn', x.t, p.fname)

# ---------------------------------------------------------------- functions

class Function:
    def __init__(self, name, static, ret, ps, parser, start):
        self.name, self.static, self.ret, self.start, self.fname = name, static, ret, start, parser.fname
        self.scopes = [{}]
        self.used, self.objects = {}, set()
        self.params = [(self.declare(n), t) for n, t in ps]
        self.types = {}
        self.p = parser
        self.body = self.block(new=False)
        self.end = parser.t[parser.i - 1].line

    def declare(self, n):
        k = self.used.get(n, 0)
        self.used[n] = k + 1
        v = n if k == 0 else '%s_%d' % (n, k)
        self.scopes[-1][n] = v
        all_vars.add(v)
        return v

    def lookup(self, n):
        for s in reversed(self.scopes):
            if n in s: return s[n]

    def addressed(self, e):
        while e[0] in ('dot',): e = e[1]
        if e[0] == 'var': self.objects.add(e[1])

    def e(self): return Expr(self.p, self).expr()

    def block(self, new=True):
        p = self.p
        p.eat('{')
        if new: self.scopes.append({})
        xs = []
        while not p.opt('}'): xs.append(self.stmt())
        if new: self.scopes.pop()
        return ('block', xs)

    def stmt(self):
        p = self.p
        if p.at('{'): return self.block()
        if p.opt('#big'):
            a = []
            while not p.opt('#little'): a.append(self.stmt())
            b = []
            # the two branches declare the same variables
            save = dict(self.used); sc = dict(self.scopes[-1])
            names = [x for x in a if x[0] == 'decl']
            for x in names: self.used[x[1]] -= 1
            while not p.opt('#end'): b.append(self.stmt())
            return ('endian', ('block', a), ('block', b))
        if p.at(';'): p.next(); return ('skip',)
        x = p.peek()
        if x.t == 'if':
            p.next(); p.eat('('); c = self.e(); p.eat(')')
            a = self.stmt()
            b = self.stmt() if p.opt('else') else ('skip',)
            return ('ite', c, a, b)
        if x.t == 'while':
            p.next(); p.eat('('); c = self.e(); p.eat(')')
            return ('while', c, self.stmt())
        if x.t == 'for':
            p.next(); p.eat('('); a = self.e(); p.eat(';'); c = self.e(); p.eat(';'); s = self.e(); p.eat(')')
            return ('for', a, c, s, self.stmt())
        if x.t == 'return':
            p.next()
            if p.opt(';'): return ('ret0',)
            e = self.e(); p.eat(';')
            return ('ret', e)
        if x.t == 'break':
            p.next(); p.eat(';'); return ('break',)
        if x.t == 'switch':
            p.next(); p.eat('('); c = self.e(); p.eat(')'); p.eat('{')
            cases = []
            while not p.opt('}'):
                if p.opt('default'): l = None
                else:
                    p.eat('case'); l = Expr(p, self).lor()
                p.eat(':')
                xs = []
                while not (p.at('case') or p.at('default') or p.at('}')): xs.append(self.stmt())
                cases.append((l, xs))
            return ('switch', c, cases)
        if is_type(x) and not (p.peek(1).t in ('(', '=', '->', '[')):
            _, b = p.specs()
            n, ty = p.declarator(b)
            init = None
            # the scope of a variable starts before its initialiser, but no initialiser here uses it
            if p.opt('='):
                if p.at('{'):
                    init = ('init', p.initialiser())
                    if ty[0] == 'arr' and ty[1] is None: ty = ('arr', len(init[1]), ty[2])
                else: init = self.e()
            v = self.declare(n)
            if ty[0] in ('arr', 'struct'): self.objects.add(v)
            p.eat(';')
            return ('decl', v, ty, init)
        e = self.e(); p.eat(';')
        return ('expr', e)

# ---------------------------------------------------------------- Lean output

KW = {'from', 'end', 'at', 'in', 'open', 'section', 'prefix', 'fun', 'if', 'then', 'else', 'match', 'with', 'do', 'list'}


def esc(n): return '«%s»' % n if n in KW else n


def lty(t):
    if t[0] == 'int': return '(.int .%s)' % t[1]
    if t[0] == 'ptr': return '(.ptr %s)' % lty(t[1])
    if t[0] == 'struct': return '(.struct .%s)' % t[1]
    if t[0] == 'arr': return '(.arr %d %s)' % (t[1], lty(t[2]))
    return '.' + t[0]


def lstr(s):
    return '"' + s.replace('\\', '\\\\').replace('"', '\\"').replace('\n', '\\n') + '"'


def stem(f):
    return f[:-2].replace('-', '_')


def fnname(n, f):
    return resolve.get((n, f), n)


def le(e):
    k = e[0]
    if k == 'num': return '(.num .%s %d)' % (e[1], e[2])
    if k == 'str': return '(.str %s)' % lstr(e[1])
    if k == 'var': return '(.var .%s)' % esc(e[1])
    if k == 'null': return '.null'
    if k == 'eof': return '.eof'
    if k in ('seekCur', 'optarg', 'optind'): return '.' + k
    if k == 'stream': return '(.stream .%s)' % e[1]
    if k == 'macro': return e[1]
    if k == 'enum': return e[1]
    if k == 'makeid': return '(IFF_MAKEID %s)' % ' '.join(le(x) for x in e[1])
    if k == 'glob': return '(.glob .%s)' % e[1]
    if k == 'fn': return '(.fn .%s)' % fnname(e[1], e[2])
    if k in ('not', 'neg', 'deref', 'addr', 'inc'): return '(.%s %s)' % (k, le(e[1]))
    if k in ('land', 'lor', 'assign', 'index'): return '(.%s %s %s)' % (k, le(e[1]), le(e[2]))
    if k in ('arrow', 'dot'): return '(.%s %s .%s)' % (k, le(e[1]), esc(e[2]))
    if k == 'bin': return '(.bin .%s %s %s)' % (e[1], le(e[2]), le(e[3]))
    if k == 'assignOp': return '(.assignOp .%s %s %s)' % (e[1], le(e[2]), le(e[3]))
    if k == 'cast': return '(.cast %s %s)' % (lty(e[1]), le(e[2]))
    if k == 'sizeof': return '(.sizeof %s)' % lty(e[1])
    if k == 'call':
        return '(.call %s %s)' % (le(e[1]), ''.join('(.cons %s ' % le(x) for x in e[2]) + '.nil' + ')' * len(e[2]))
    raise ValueError(e)


def lseq(xs, ind):
    if not xs: return '.skip'
    if len(xs) == 1: return ls(xs[0], ind)
    return '(.seq %s\n%s%s)' % (ls(xs[0], ind + 2), ' ' * (ind + 2), lseq(xs[1:], ind))


def ls(s, ind):
    k, sp = s[0], '\n' + ' ' * (ind + 2)
    if k == 'block': return lseq(s[1], ind)
    if k == 'skip': return '.skip'
    if k == 'expr': return '(.expr %s)' % le(s[1])
    if k == 'ite': return '(.ite %s%s%s%s%s)' % (le(s[1]), sp, ls(s[2], ind + 2), sp, ls(s[3], ind + 2))
    if k == 'endian': return '(.endian%s%s%s%s)' % (sp, ls(s[1], ind + 2), sp, ls(s[2], ind + 2))
    if k == 'while': return '(.while %s%s%s)' % (le(s[1]), sp, ls(s[2], ind + 2))
    if k == 'for': return '(.for %s %s %s%s%s)' % (le(s[1]), le(s[2]), le(s[3]), sp, ls(s[4], ind + 2))
    if k == 'ret': return '(.ret %s)' % le(s[1])
    if k == 'ret0': return '.retVoid'
    if k == 'break': return '.break'
    if k == 'decl':
        obj = s[1] in cur.objects
        if s[3] is not None and s[3][0] == 'init':
            return '(.aggregate .%s %s [%s])' % (esc(s[1]), lty(s[2]), ', '.join(
                init_cells(s[3][1], cycle(scalars(s[2])))))
        return '(.%s .%s %s %s)' % ('object' if obj else 'decl', esc(s[1]), lty(s[2]),
                                    'none' if s[3] is None else '(some %s)' % le(s[3]))
    if k == 'switch':
        out = '.nil'
        for l, xs in reversed(s[2]):
            out = '(.%s%s%s%s)' % ('default ' if l is None else 'case %s ' % le(l), ls(('block', xs), ind + 2), sp, out)
        return '(.switch %s%s%s)' % (le(s[1]), sp, out)
    raise ValueError(s)


all_vars, globals_names = set(), {'IFF_globalChunkTypes', 'IFF_globalChunkTypesNode', 'IFF_defaultChunkType', 'IFF_defaultChunkRegistry',
                           'test_applicationChunkTypes', 'test_applicationChunkTypesNode', 'test_formChunkTypes',
                           'test_chunkRegistry'}
for h in os.listdir(LIB):
    if h.endswith('.h'):
        for m in re.finditer(r'typedef struct (\w+) (\w+);', open(os.path.join(LIB, h)).read()):
            typedefs[m.group(2)] = ('struct', m.group(1))
for h in HEADERS:
    t = preprocess(os.path.join(LIB, h))
    p = Parser(t, h); p.unit()
preprocess(os.path.join(REPO, 'src/iffpp/pp.h'))
# struct option of getopt.h
structs['option'] = [('name', ('ptr', ('int', 'char'))), ('has_arg', ('int', 'int')), ('flag', ('ptr', ('int', 'int'))),
                     ('val', ('int', 'int'))]
header_macros = list(macro_order)
del macro_order[:]
for h in TESTS:
    t = preprocess(os.path.join(REPO, 'tests', h))
    p = Parser(t, h); p.unit()
test_macros = list(macro_order)
files = []
for f in SOURCES:
    del macro_order[:]
    t = preprocess(os.path.join(REPO, 'src', f))
    p = Parser(t, os.path.basename(f)); p.unit()
    files.append((f, p, list(macro_order)))
    if f == '../tests/test.c': p.globs = [('test_' + g[0],) + g[1:] for g in p.globs]
resolve = {}
for f, long, msvc, suffix, same in MAINS:
    tool = f.split('/')[0]
    t = preprocess(os.path.join(REPO, 'src', f), {'HAVE_GETOPT_H': long, '_MSC_VER': msvc})
    p = Parser(t, f + suffix); p.unit()
    for x in p.funs: resolve[(x.name, p.fname)] = tool + '_' + x.name + ('' if x.name in same else suffix)
    p.funs = [x for x in p.funs if x.name not in same]
    if suffix: files[-1][1].more.append(p)
    else: files.append((f, p, []))
    if not suffix: p.more = []
for f in PROGRAMS:
    p = Parser(preprocess(os.path.join(REPO, 'tests', f)), f); p.unit()
    resolve[('main', f)] = f[:-2] + '_main'
    files.append(('../tests/' + f, p, []))
for f, programs in DATA.items():
    del macro_order[:]
    p = Parser(preprocess(os.path.join(REPO, 'tests', f)), f); p.unit()
    p.globs = [(stem(f) + '_' + g[0],) + g[1:] for g in p.globs]
    globals_names.update(g[0] for g in p.globs)
    for x in p.funs:
        for y in [f] + programs: resolve[(x.name, y)] = stem(f) + '_' + x.name
    files.append(('../tests/' + f, p, list(macro_order)))
    for y in programs:
        p = Parser(preprocess(os.path.join(REPO, 'tests', y)), y); p.unit()
        resolve[('main', y)] = stem(y) + '_main'
        files.append(('../tests/' + y, p, []))
# static functions with the same name
count = {}
for _, p, _ in files:
    for f in p.funs:
        if (f.name, p.fname) not in resolve: count.setdefault(f.name, []).append(p.fname)
for n, fs in count.items():
    if len(fs) > 1:
        for x in fs: resolve[(n, x)] = x[:-2] + '_' + n
fun_names = [fnname(f.name, q.fname) for _, p, _ in files for q in [p] + getattr(p, 'more', []) for f in q.funs]
members = []
for s in structs.values():
    for m, _ in s:
        if m not in members: members.append(m)
os.makedirs(OUT, exist_ok=True)


def write(name, text):
    open(os.path.join(OUT, name + '.lean'), 'w').write(text)


def enum(name, xs, doc):
    return '/-- %s -/\ninductive %s where\n%s\n  deriving DecidableEq, Repr\n' % (
        doc, name, '\n'.join('  | ' + esc(x) for x in xs))


w = ['/-\n  Generated by tools/c2lean.py from src/libiff, src/iffjoin and src/iffpp: the names that occur in the sources.\n-/\nnamespace Iff.Src\n']
w.append(enum('Fn', fun_names + PRIMS, 'Functions: those of the library, and those of the C library.'))
w.append(enum('Var', sorted(all_vars), 'Parameters and local variables.'))
w.append(enum('Member', members, 'Members of structs.'))
w.append(enum('Struct', list(structs), 'Structs.'))
w.append(enum('Glob', sorted(globals_names), 'Static objects.'))
w.append('end Iff.Src\n')
write('Names', '\n'.join(w))

w = ['import Verif.Src.Syntax\n/-\n  Generated by tools/c2lean.py: the structs and macros of the headers of src/libiff.\n-/\nnamespace Iff.Src\n']
w.append('/-- The members of a struct with their types, in order. -/\ndef Struct.members : Struct → List (Member × Ty)')
for s, ms in structs.items():
    w.append('  | .%s => [%s]' % (s, ', '.join('(.%s, %s)' % (esc(m), lty(t)) for m, t in ms)))
w.append('')
w.append('/-- id.h `IFF_MAKEID` -/\ndef IFF_MAKEID (a b c d : Expr) : Expr :=\n  .bin .bor (.bin .bor (.bin .bor (.bin .shl a (.num .int 24)) (.bin .shl b (.num .int 16)))\n    (.bin .shl c (.num .int 8))) d\n')


def macro_defs(ms):
    out = []
    for n, path, line in ms:
        if n in ('IFF_BIG_ENDIAN',) or n.startswith('__'): continue
        p = Parser(defined.get((n, path), macros[n]), path)
        e = Expr(p, None).expr()
        if os.path.basename(path) in DATA: n = stem(os.path.basename(path)) + '_' + n
        out.append('/-- %s:%d -/\ndef %s : Expr := %s\n' % (os.path.basename(path), line, n, le(e)))
    return out


w += macro_defs(header_macros + test_macros)
for n, v in enums.items(): w.append('/-- field.h -/\ndef %s : Expr := .num .int %d\n' % (n, v))
w.append('end Iff.Src\n')
write('Headers', '\n'.join(w))


def scalars(t):
    if t[0] == 'struct': return [x for _, m in structs[t[1]] for x in scalars(m)]
    if t[0] == 'arr': return scalars(t[2])
    return [t]


def init_cells(e, types=None):
    """The cells of an object; `types` are their types."""
    if isinstance(e, list):
        return [c for x in e for c in init_cells(x, types)]
    k = e[0]
    if types and next(types)[0] == 'ptr' and e == ('num', 'int', 0): return ['.null']
    if k == 'fn': return ['.fn .%s' % fnname(e[1], e[2])]
    if k == 'null': return ['.null']
    if k == 'addr': return ['.fn .%s' % fnname(e[1][1], e[1][2])] if e[1][0] == 'fn' else ['.glob .%s' % e[1][1]]
    if k == 'glob': return ['.glob .%s' % e[1]]
    return ['.expr %s' % le(e)]


mods = []
for f, p, ms in files:
    name = os.path.basename(f)[:-2].replace('-', '').capitalize()
    base = os.path.basename(f)
    if name == 'Main': name, base = f[0:f.index('/')].capitalize() + 'Main', f
    mods.append(name)
    w = ['import Verif.Src.Code.Headers\n/-\n  Generated by tools/c2lean.py from %s.\n-/\nnamespace Iff.Src\n' % os.path.normpath('src/' + f)]
    w += macro_defs(ms)
    for g, ty, init, a, b in p.globs:
        if g not in globals_names: continue
        w.append('/-- %s:%d-%d -/\ndef %s.init : List Init :=\n  [%s]\n' % (os.path.basename(f), a, b, g, ',\n   '.join(init_cells(init))))
    for q, fn in [(q, fn) for q in [p] + getattr(p, 'more', []) for fn in q.funs]:
        cur = fn
        n = fnname(fn.name, q.fname)
        w.append('/-- %s:%d-%d -/\ndef %s.code : Fun where\n  params := [%s]\n  ret := %s\n  body :=\n    %s\n' % (
            base, fn.start, fn.end, n, ', '.join('(.%s, %s)' % (esc(v), lty(t)) for v, t in fn.params),
            lty(fn.ret), ls(fn.body, 4)))
    w.append('end Iff.Src\n')
    write(name, '\n'.join(w))

w = [''.join('import Verif.Src.Code.%s\n' % m for m in mods) + '/-\n  Generated by tools/c2lean.py: all functions.\n-/\nnamespace Iff.Src\n']
w.append('/-- The definition of a function; `none` for those of the C library and those with variable\nargument lists. -/\ndef code : Fn → Option Fun')
for n in fun_names: w.append('  | .%s => some %s.code' % (n, n))
w.append('  | _ => none\n\nend Iff.Src\n')
write('All', '\n'.join(w))
print(len(fun_names), 'functions')
