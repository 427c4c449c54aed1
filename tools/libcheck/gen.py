"""Random inputs for the models of the Python library, with the results of CPython."""
import random, posixpath, re, sys, calendar, datetime, configparser, io
from urllib.parse import urlparse, urljoin, urlunsplit, urlsplit
random.seed(int(sys.argv[1]) if len(sys.argv) > 1 else 1)
N = int(sys.argv[2]) if len(sys.argv) > 2 else 2000
out = []
def enc(x):
    if x is None: return 'N'
    if isinstance(x, (list, tuple)): return 'L' + ';'.join(enc(y) for y in x) if x else 'L'
    return 'S' + ','.join(str(ord(c)) for c in x)
def case(f, args, r): out.append('\t'.join([f] + [enc(a) for a in args] + [enc(r)]))
def rs(alpha, n): return ''.join(random.choice(alpha) for _ in range(random.randint(0, n)))
def pieces(ps, n): return ''.join(random.choice(ps) for _ in range(random.randint(0, n)))
def ok(f, *a):
    try: return f(*a)
    except ValueError: return None
P = ['/', 'a', 'b', '.', '..', '//', '/a', 'b/', '../', './', 'c.d']
U = ['http', 'https', 'file', 'HTTP', 'ftp', 'urn', ':', '://', '/', '//', '///', 'a', 'b.c', 'h:80', '?', '?q=1', '#', '#f', ';', ';p', '.', '..', '../', './', '[', ']', ' ', '\t', '\n', '%20', 'é', '@', '+', '-', '1']
for i in range(N):
    p, q, c = pieces(P, 8), pieces(P, 6), '/' + pieces(['x', '/', 'a', 'b/'], 4)
    case('normpath', [p], posixpath.normpath(p)); case('dirname', [p], posixpath.dirname(p)); case('basename', [p], posixpath.basename(p))
    case('join', [p, q], posixpath.join(p, q))
    import os
    os_getcwd = os.getcwd
    os.getcwd = lambda: c
    try:
        case('abspath', [c, p], posixpath.abspath(p)); case('relpath', [c, p, q or '.'], ok(posixpath.relpath, p, q or '.'))
    finally: os.getcwd = os_getcwd
    case('commonprefix', [p, q], posixpath.commonprefix([p, q]))
    u, v = pieces(U, 9), pieces(U, 7)
    if random.random() < .5: u = random.choice(['http://', 'https://', 'file://', 'ftp://', 'urn:', '//']) + u
    def up(u):
        r = urlparse(u); return [r.scheme, r.netloc, r.path, r.params, r.query, r.fragment]
    if '[' not in u+v and ']' not in u+v or random.random() < .1:
        # the checks of bracketed hosts are not modelled
        def br(x):
            try: urlparse(x); return True
            except ValueError as e: return 'Invalid IPv6 URL' in str(e)
        if br(u) and br(v):
            case('urlparse', [u], ok(up, u)); case('urljoin', [u, v], ok(urljoin, u, v))
            case('host', [u], ok(lambda u: urlunsplit([urlsplit(u)[0], urlsplit(u)[1], '', '', '']), u))
    s = rs('ab/ \t\n\x0b\x0c\x1c\x85\xa0x', 10)
    case('split', [s], s.split()); case('splitslash', [s], s.split('/')); case('split1', [s], s.split('/', 1)); case('strip', [s], s.strip()); case('rstrip', [s], s.rstrip())
    case('lstrip', [u], u.lstrip('file:///')); case('lower', [u], u.lower() if u.isascii() else ''.join(ch.lower() if ch.isascii() else ch for ch in u))
    n = rs('0123456789', 4) if random.random() < .3 else rs('0123_+- \t\x1c\xa0', 6)
    case('int', [n], (lambda r: None if r is None else str(r))(ok(int, n)))
    m = random.choice([random.randint(0, 5), random.randint(0, 10**12)]); case('natpad', [str(m)], '%05d' % m)
    # calendar
    t = random.choice([random.randint(-62135596900, 253402300900), random.randint(-62135596800, 253402300799), random.randint(0, 2*10**9)])
    us = random.choice([0, 0, random.randint(0, 999999)])
    try: iso = (datetime.datetime(1970, 1, 1) + datetime.timedelta(seconds=t, microseconds=us)).isoformat()
    except OverflowError: iso = None
    case('iso', [str(t * 1000000 + us)], iso)
    y, mo, d = random.choice([random.randint(1, 9999), 2000, 1900, 2004, 9999, 1]), random.randint(0, 13), random.randint(0, 32)
    try: x = datetime.datetime(y, mo, d, 3, 4, 5); r = str(calendar.timegm(x.timetuple()))
    except ValueError: r = None
    case('timegm', [str(y), str(mo), str(d)], r)
    # regular expressions
    rx = rs('ab.*+?|()^$', 8); subj = rs('ab\n', 6)
    try:
        import warnings; warnings.simplefilter('error')
        mm = re.match(rx, subj); bad = False
    except re.error: bad = True
    except Exception: continue
    if bad: case('re', [rx, subj], 'bad')
    elif mm is None: case('re', [rx, subj], 'none')
    else: case('re', [rx, subj], [mm.group(0)] + ['none' if g is None else 'some' + g for g in mm.groups()])
    # configuration files
    txt = pieces(['[incremental]\n', '[a]\n', '[DEFAULT]\n', 'k = 1\n', 'K: 2\n', 'x=y\n', ' cont\n', '\n', '# c\n', '; c\n', '[b] t\n', '[]\n', 'junk\n', '=v\n', '\tz\n', 'q = \n', ' k = 3\n', '  [a]\n', 'k =a=b:c\n', '[x]]y\n', 'e', '\n\n'], 8)
    def rd(txt):
        c = configparser.ConfigParser(); c.read_string(txt)
        o = io.StringIO(); c.write(o)
        def g(s, k):
            try: return 'some' + c.get(s, k)
            except configparser.NoSectionError: return 'nosec'
            except configparser.NoOptionError: return 'noopt'
        return [o.getvalue(), g('incremental', 'k'), g('a', 'K'), g('DEFAULT', 'x')]
    try: r = rd(txt)
    except configparser.Error: r = None
    case('cfg', [txt], r)
import xml.etree.ElementTree as ET
def allk(t): return list(t[1]) + [t[0]] + [k for c in t[3] for k in allk(c)]
def tree(depth):
    tag = random.choice(['url', 'loc', 'rs:md', 'rs:ln', 'a b', 'x', 'rs:', 'q:z', '1a', 'a-b.c'] if random.random() < .2 else ['url', 'loc', 'rs:md', 'rs:ln'])
    att = {}
    for _ in range(random.randint(0, 3)):
        k = random.choice(['href', 'rel', 'a-b', 'a b', '1', '_x', 'é', 'xmlns:z', 'xmlns', 'xmlns:rs', 'xmlns', 'xmlns:rs', 'xmlns:', 'xmlns:1', 'xmlns:xmlns', 'xmlnsa'] if random.random() < .1 else ['href', 'rel', 'pri'])
        att[k] = random.choice(['http://a', 'http://b', '', 'http://www.w3.org/2000/xmlns/', 'http://www.w3.org/XML/1998/namespace', 'a}b', val()]) if k.startswith('xmlns') else val()
    text = random.choice([None, '', val()])
    ch = [tree(depth - 1) for _ in range(random.randint(0, 2))] if depth > 0 else []
    return (tag, att, text, ch)
def val(): return rs('ab<>&"\'\n\t é\U0001F600' + ('\r' if random.random() < .3 else '') + ('\x0b\ufffe' if random.random() < .05 else ''), 6)
def build(t, att=None):
    e = ET.Element(t[0], {**(att or {}), **t[1]}); e.text = t[2]
    for c in t[3]: e.append(build(c))
    return e
def flat(t): return [t[0], [x for kv in t[1].items() for x in kv], t[2], [flat(c) for c in t[3]]]
def back(e): return [e.tag, [x for kv in e.attrib.items() for x in kv], e.text, [back(c) for c in e]]
def nest(x):
    if x is None: return 'N'
    if isinstance(x, list): return '(' + ' '.join(nest(y) for y in x) + ')'
    return 'S' + ','.join(str(ord(c)) for c in x)
for i in range(N):
    t = tree(3)
    o = io.StringIO()
    root = build(('urlset', t[1], t[2], t[3]), {'xmlns': 'http://n', 'xmlns:rs': 'http://r'})
    ET.ElementTree(root).write(o, encoding='unicode', method='xml', xml_declaration=True)
    try: r = nest(back(ET.fromstring(o.getvalue().encode('utf-8'))))
    except ET.ParseError: r = 'N'
    if any(ord(c) in (233,) for k in allk(t) for c in k): continue
    out.append('xml\t' + nest(flat(('urlset', {'xmlns': 'http://n', 'xmlns:rs': 'http://r', **t[1]}, t[2], t[3]))) + '\t' + r)
def tails(e, d=0):
    for c in e:
        c.tail = '\n<&\r>' if d + 1 == 1 or c.tag == 'rs:ln' else None
        tails(c, d + 1)
bits = ['<a>', '</a>', '<a />', '<b x="1">', '</b>', "<b y='&lt;2' x=\"a\nb\"/>", '<r:c xmlns:r="u">', '</r:c>', '<d xmlns="v" p:q="1" xmlns:p="w">', '</d>', '<d\n>', '</d\t>', 't', '&amp;', '&#65;', '&#x41;', '&#0;', '&#xD800;', '&bad;', '&', ']]>', ']]', '>', '<', '<!-- c -->', '<!-- c -- d -->', '<!-->', '<?pi x?>', '<![CDATA[x<&]]>', '<![CDATA[]]]]>', ' ', '\r\n', '\r', '"', "'", '<e a="1" a="2"/>', '<e a="1"b="2"/>', '<e a ="1" />', '<e a=1/>', '<e xmlns:z=""/>', '<z:e/>', '<e z:a="1"/>', '<e xmlns:z="u" xmlns:y="u" z:a="1" y:a="2"/>', '<xml:e xml:a="1"/>', '<1/>', '<a:b:c/>', '< a/>', '<a/ >', '\x01', '<e a="<"/>', '<e a="&#10;&#x9; \t"/>', '</>', '<a', 'a>', '/>', '="1"']
def text():
    r = random.random()
    if r < .5: return pieces(bits, 8)
    if r < .8:
        n = random.choice(['a', 'b', 'd', 'r:c'])
        return random.choice(['', '', "<?xml version='1.0'?>", '<!-- x -->', '\n', '<?p?>']) + '<%s%s>' % (n, random.choice([' xmlns:r="u"', ' xmlns="v" xmlns:r="u"', ' x="1" xmlns:r="u"', '', ' x="&#13;\r\n"'])) + pieces(bits, 5) + '</%s>' % n + random.choice(['', '', '\n', '<!-- y -->', 'z', '<?q?>'])
    o = io.StringIO(); ET.ElementTree(build(('urlset',) + tree(2)[1:], {'xmlns': 'http://n', 'xmlns:rs': 'http://r'})).write(o, encoding='unicode')
    t = o.getvalue(); i = random.randint(0, len(t)); j = random.randint(0, 2)
    return t[:i] + random.choice(['', random.choice('<>&"\'/ =a:')]) + t[i + j:]
for i in range(N):
    t = tree(3); o = io.StringIO()
    root = build(('urlset', t[1], t[2], t[3]), {'xmlns': 'http://n', 'xmlns:rs': 'http://r'}); tails(root)
    if any(k[:1] == '{' for k in allk(t)): continue
    ET.ElementTree(root).write(o, encoding='unicode', method='xml', xml_declaration=True)
    out.append('xmlw\t' + nest(flat(('urlset', {'xmlns': 'http://n', 'xmlns:rs': 'http://r', **t[1]}, t[2], t[3]))) + '\t' + nest(o.getvalue()))
for i in range(6 * N):
    x = text()
    if ' é=' in x: continue  # names that are not ASCII are not modelled
    try: r = nest(back(ET.parse(io.StringIO(x)).getroot()))
    except ET.ParseError: r = 'N'
    out.append('xmlr\t' + nest(x) + '\t' + r)
D, F, G = r'\d\d\d\d(\-\d\d(\-\d\d)?)?$', r'(.*\d{2}:\d{2}:\d{2})(\.\d+)([^\d].*)?$', r'(\d\d\d\d\-\d\d\-\d\dT\d\d:\d\d(:\d\d)?)(Z|([+-])(\d\d):(\d\d))$'
for i in range(N):
    s = pieces(['2000', '-01', '-02', 'T', '10', ':', '10:20', '10:20:30', '.5', '.', 'Z', '+', '-', '+01:00', '-10:30', '\n', 'x', '7'], 6)
    if random.random() < .6: s = random.choice(['2001', '2001-02', '2001-02-03', '2001-02-03T10:20', '2001-02-03T10:20:30', '2001-02-03T10:20:30.25']) + pieces(['Z', '+01:00', '-02:30', '', 'z', '\n', '.1', ' '], 2)
    for nm, rx in (('dateRe', D), ('fracRe', F), ('fullRe', G)):
        mm = re.match(rx, s)
        case(nm, [s], 'none' if mm is None else [mm.group(0)] + ['none' if g is None else 'some' + g for g in mm.groups()])
    u = pieces(U + ['_', 'a1'], 4); case('scheme', [u], 'yes' if re.match(r'\w+:', u) else 'no')
from urllib.request import Request, url2pathname
def opened(uri):
    if not re.match(r'\w+:', uri): uri = 'file:' + uri
    try: r = Request(uri)
    except ValueError: return None
    if r.type != 'file' or (r.host and r.host != 'localhost'): return None
    return url2pathname(r.selector)
for i in range(N):
    u = pieces(['file:', 'FILE:', 'http:', '/', '//', '///', 'a', 'b.xml', '#', '?', '%', '%41', '%2', '%c3%a9', '%C3%', '%23', 'é', ' ', '\t', ':', 'URL:', '<', '>', 'localhost', 'd/', '%25'], 7)
    r = opened(u)
    if r is None or '\ufffd' not in r: case('opened', [u], r)
from fractions import Fraction
def pick():
    r = random.random()
    if r < .3: return random.uniform(-62135596800, 253402300800)
    if r < .6: return round(random.uniform(-2**34, 2**34), 6)
    if r < .8: return round(random.uniform(-10000, 10000), random.choice([0, 1, 3, 6]))
    if r < .9: return random.choice([-1, 1]) * 2.0 ** random.randint(-30, 37) + random.choice([0, 1e-6, -1e-6])
    return random.uniform(-2, 2) * 10 ** random.randint(-20, 3)
for i in range(4 * N):
    t = pick(); q = Fraction(t)
    try: w = datetime.datetime.utcfromtimestamp(t + 0.0000001).isoformat() + 'Z'
    except (ValueError, OverflowError): w = None
    case('writeD', [str(q.numerator), str(q.denominator)], w)
    n, f = int(t), str(random.randint(0, 10 ** random.randint(1, 9)))
    x = Fraction(n + float('.' + f))
    case('readD', [str(n), f], [str(x.numerator), str(x.denominator)])
    y = Fraction(t / random.choice([3.0, 7.0, 10.0, 1e6])) * random.randint(-10**9, 10**9) / random.randint(1, 10**12)
    z = Fraction(y.numerator / y.denominator)
    case('fl', [str(y.numerator), str(y.denominator)], [str(z.numerator), str(z.denominator)])
open('cases.txt', 'w').write('\n'.join(out) + '\n')
print(len(out))
