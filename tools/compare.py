#!/usr/bin/env python3
"""Compare the transcribed tables of the model with the sources.

Usage: compare.py REPO [LEAN]   (LEAN defaults to ../lean next to this file)

Checks, by reading both as text:
  * the 210 conversion functions and 15 dispatchers of color_converter.cpp (names, bodies of composed functions,
    every case of the dispatchers, cited lines) and the cases of convertTo,
  * the white point presets, the RGB colour space presets and the named colours.
The elementary formulas (Leaf.lean) and everything else are compared by eye only.
"""
import os, re, sys

repo = sys.argv[1]
lean = sys.argv[2] if len(sys.argv) > 2 else os.path.join(os.path.dirname(os.path.abspath(__file__)), '..', 'lean')
errors = 0


def source(path):
    return open(os.path.join(repo, 'ColorMagic', path), encoding='latin1').read().replace('\r', '')


def model(name):
    return open(os.path.join(lean, 'Verif', name + '.lean'), encoding='utf8').read()


def wrong(*what):
    global errors
    errors += 1
    print('DIFFERENT', *what)


TYPES = {'RGB_TRUE': 'rgbTrue', 'RGB_DEEP': 'rgbDeep', 'GREY_TRUE': 'greyTrue', 'GREY_DEEP': 'greyDeep', 'CMYK': 'cmyk', 'HSI': 'hsi', 'HSV': 'hsv', 'HSL': 'hsl',
         'HCY': 'hcy', 'XYZ': 'xyz', 'XYY': 'xyy', 'CIELUV': 'cieluv', 'LAB': 'lab', 'LCH_AB': 'lchAb', 'LCH_UV': 'lchUv'}
CLASSES = {'rgb_truecolor': 'rgbTrue', 'rgb_deepcolor': 'rgbDeep', 'grey_truecolor': 'greyTrue', 'grey_deepcolor': 'greyDeep', 'lch_ab': 'lchAb', 'lch_uv': 'lchUv'}


def conversions():
    src = source('manipulation/color_converter.cpp').replace('color_manipulation::color_converter::', '').replace('color_space::', '')
    text = model('Converter')
    funcs = {m[2]: (m[4], re.sub(r'//.*', '', m[5]), src[:m.start()].count('\n') + 1, src[:m.end()].count('\n') + 1)
             for m in re.finditer(r'^(\w+)\*\s+(\w+)\((\w+)\*\s*(\w+)\)\n\{\n(.*?)^\}', src, re.M | re.S)}
    defs = {m[3]: (m[4].strip(), int(m[1]), int(m[2]))
            for m in re.finditer(r'/-- color_converter\.cpp:(\d+)-(\d+)[^-]*?-/\n(?:noncomputable )?def (\w+) \(p : Ptr\) : Prog Ptr :=(.*?)(?=\n\n|\Z)', text, re.S)}
    if set(funcs) != set(defs):
        wrong('functions', set(funcs) ^ set(defs))
    composed = leaves = dispatchers = 0
    for f, (arg, body, first, last) in funcs.items():
        d, a, b = defs[f]
        if (a, b) != (first, last):
            wrong('lines of', f)
        m = re.fullmatch(r'\s*return (\w+)\((\w+)\(' + arg + r'\)\);\s*', body)
        if m:
            composed += 1
            if re.sub(r'\s+', ' ', d) != 'do let q ← %s p %s q' % (m[2], m[1]):
                wrong(f, d)
        elif f.startswith('to_'):
            dispatchers += 1
            cases = {TYPES[c[1]]: c[2] for c in re.finditer(r'case color_type::(\w+):\s*return (.*?);', body, re.S)}
            mine = {c[1]: c[2].strip() for c in re.finditer(r'\| \.(\w+) => (.*)', d)}
            for t in TYPES.values():
                e = cases.get(t, '')
                m = re.fullmatch(r'(\w+)\(static_cast<(\w+)\*>\(' + arg + r'\)\)', e)
                n = re.fullmatch(r'static_cast<(\w+)\*>\(' + arg + r'\)', e)
                want = 'do %s (← cast .%s p)' % (m[1], CLASSES.get(m[2], m[2])) if m else 'cast .%s p' % CLASSES.get(n[1], n[1]) if n else None
                if want != mine.get(t):
                    wrong(f, t, e, mine.get(t))
            if mine.get('undefined') != 'pure none' or not re.search(r'default:\s*return nullptr;', body):
                wrong(f, 'default')
        else:
            leaves += 1
    body = re.search(r'convertTo\(.*?\n\{(.*?)^\}', src, re.M | re.S)[1]
    cases = {TYPES[c[1]]: c[2] for c in re.finditer(r'case color_type::(\w+):\s*return (\w+)\(in_color\);', body)}
    mine = {c[1]: c[2] for c in re.finditer(r'\| \.(\w+) => (\w+) p', text[text.index('def convertTo'):])}
    if cases != mine:
        wrong('convertTo', cases, mine)
    print('conversions: %d composed, %d dispatchers, %d cases of convertTo agree; %d elementary ones not compared' % (composed, dispatchers, len(cases), leaves))


def numbers(s):
    return [float(x.strip().rstrip('f')) for x in s.split(',')]


def whites():
    src = source('spaces/white_point.h').split('\n')
    rows = re.findall(r'\|\s*(\w+) => \((.*)\) -- line (\d+)', model('WhitePoint'))
    for name, values, line in rows:
        m = re.search(r'(\w+)\(\).*white_point\(([^)]*)\)', src[int(line) - 1])
        if not m or m[1] != name or numbers(m[2]) != numbers(values):
            wrong('white point', name)
    print('white points: %d of %d' % (len(rows), len(re.findall(r'return new white_point', '\n'.join(src)))))


def spaces():
    src = source('spaces/rgb_color_space_definition.h').split('\n')
    text = model('SpaceDef')
    prim = re.findall(r'\|\s*(\w+) => \((.*)\) -- line (\d+)', text)
    white = dict(re.findall(r'\|\s*(\w+) => \.(\w+_\d+Degree) -- line', text))
    gamma = dict(re.findall(r'\|\s*(\w+) => \.(\w+) -- line', text[text.index('def gamma'):]))
    names = {'sRGB': 'sRGB', 'gammaAdobe': 'adobe', 'gammaRomm': 'romm', 'gammaUHDTV': 'uhdtv', 'gamma1_8': 'g1_8', 'gamma2_2': 'g2_2', 'gamma2_6': 'g2_6', 'gamma2_8': 'g2_8'}
    for name, values, line in prim:
        m = re.search(r'(\w+)\(\) \{ return new rgb_color_space_definition\((.*), m_white_presets\.(\w+)\(\), m_gamma_presets\.(\w+)\(\)\)', src[int(line) - 1])
        if not m or m[1] != name or numbers(m[2]) != numbers(values) or m[3] != white[name] or names[m[4]] != gamma[name]:
            wrong('colour space', name)
    print('colour spaces: %d of %d' % (len(prim), len(re.findall(r'return new rgb_color_space_definition', '\n'.join(src)))))


def named():
    src = dict((a.lower(), int(b, 16)) for a, b in re.findall(r'^\s*(\w+)\s*=\s*0x([0-9A-Fa-f]+)', source('utils/colors.h'), re.M))
    mine = dict((a.lower(), int(b, 16)) for a, b in re.findall(r'\|\s*(\w+) => 0x([0-9A-Fa-f]+)#32', model('Predefined')))
    if src != mine:
        wrong('named colours', set(src.items()) ^ set(mine.items()))
    print('named colours: %d' % len(mine))


conversions()
whites()
spaces()
named()
print('%d differences' % errors)
sys.exit(1 if errors else 0)
