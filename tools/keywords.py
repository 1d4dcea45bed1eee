"""Writes lean/Verif/Proofs/KeywordData.lean: automata that every program passes, with the sets that show it.
Nothing about them is assumed: Proofs/Keywords checks them against the productions."""
import re, sys, os
R = os.path.join(os.path.dirname(os.path.abspath(__file__)), '..', 'lean', 'Verif')
s = open(R + '/Spec/LRData.lean').read()
i = s.index('def lrRules'); j = s.find('\ndef ', i + 5)
rules = [(int(m.group(1)), [(x.split()[0], int(x.split()[1])) for x in m.group(2).split(', ')])
         for m in re.finditer(r'⟨(\d+), \[([^\]]*)\]⟩', s[i:j])]
g = open(R + '/Spec/GrammarFile.lean').read()
T = [x.strip().strip('()').replace(' []', '')[1:] for x in
     re.search(r'def fileTerminals : List Token :=\s*\[(.*?)\]\n\n', g, re.S).group(1).replace('\n', ' ').split(',')]
words = ['identifier', 'customIdentifier', 'specialIdentifier', 'templateIdentifier', 'byStrWithSize', 'eventType', 'byStr']
names = words
NI = ['identifier', 'specialIdentifier']
comp = ['contract', 'transition', 'procedure']

def default(t):
    if t in names: return 'N'
    if t in comp: return 'T'
    return {'pipe': 'R', 'closeParen': 'R', 'underscore': 'R', 'with_': 'W', 'field': 'F', 'let_': 'L', 'match_': 'M',
            'fun_': 'K', 'tfun': 'Y', 'exists_': 'E', 'delete': 'E'}.get(t, 'O')

def step1(q, t):
    if q == 'SINK': return 'SINK'
    if q == 'START': return 'O' if t == 'scillaVersion' else 'SINK'
    if t == 'scillaVersion': return 'SINK'
    if q == 'O': return default(t)
    if q == 'R': return 'SINK' if t == 'tfun' else 'RN' if t in names else default(t)
    if q in ('RN', 'RI', 'RT'):
        if t in NI: return 'RI'
        if t in names: return 'RT'
        if t == 'tfun': return 'SINK'
        if t == 'dot': return 'RD' if q == 'RN' else 'RPD'
        return step1({'RN': 'N', 'RI': 'PI', 'RT': 'PT'}[q], t)
    if q == 'RD': return 'RN' if t in names else 'SINK'
    if q == 'RPD': return 'RI' if t in NI else 'RT' if t in names else 'SINK'
    if q in ('N', 'PI', 'PT', 'PV', 'PPI', 'NPI'):
        if t in NI: return 'PI'
        if t == 'templateIdentifier': return 'PV'
        if t in names: return 'PT'
        if q == 'PV' and t == 'doubleArrow': return 'Z'
        if t == 'dot': return 'ND' if q == 'N' else 'O' if q in ('PPI', 'NPI') else 'PD'
        if q == 'PI' and t in ('colon', 'equals', 'with_', 'openBracket'): return 'SINK'
        if q in ('PPI', 'NPI') and t == 'colon': return 'SINK'
        if t == 'openParen': return 'NP' if q in ('N', 'NPI', 'PPI') else 'PP'
        return default(t)
    if q == 'ND': return 'N' if t in names else default(t)
    if q == 'PD': return 'PI' if t in NI else 'PT' if t in names else default(t)
    if q == 'PP': return 'SINK' if t in ('closeParen', 'comma') else 'PPI' if t == 'identifier' else default(t)
    if q == 'NP': return 'SINK' if t == 'comma' else 'NPI' if t == 'identifier' else default(t)
    if q == 'T': return 'TN' if t in names else 'SINK'
    if q == 'TN': return 'TP' if t == 'openParen' else 'SINK'
    if q == 'TP': return 'O' if t in ('closeParen', 'comma') else 'TPI' if t == 'identifier' else 'SINK'
    if q == 'TPI': return 'O' if t == 'colon' else 'SINK'
    if q == 'W': return 'AC' if t == 'contract' else 'WN' if t in names and t != 'specialIdentifier' else default(t)
    if q == 'WN': return 'SINK' if t in ('end_', 'field') else step1('N', t)
    if q == 'AC': return 'O' if t == 'end_' else 'F' if t == 'field' else 'SINK'
    if q in ('F', 'M', 'E'): return q + 'I' if t in NI else q + 'C' if t in names else 'SINK'
    if q in ('FC', 'MC', 'EC'): return q[0] + 'D' if t == 'dot' else 'SINK'
    if q in ('FD', 'MD', 'ED'): return q[0] + 'I' if t in NI else 'SINK'
    if q == 'FI': return 'O' if t == 'colon' else 'SINK'
    if q == 'MI': return 'W' if t == 'with_' else 'SINK'
    if q == 'EI': return 'O' if t == 'openBracket' else 'ED' if t == 'dot' else 'SINK'
    if q == 'L': return 'LI' if t == 'identifier' else 'SINK'
    if q == 'LI': return 'O' if t in ('colon', 'equals') else 'SINK'
    if q == 'K': return 'KP' if t == 'openParen' else 'SINK'
    if q == 'KP': return 'KI' if t == 'identifier' else 'SINK'
    if q == 'KI': return 'O' if t == 'colon' else 'SINK'
    if q == 'Z': return 'F' if t == 'field' else 'T' if t in comp else 'SINK'
    if q == 'X': return 'SINK' if t == 'field' or t in comp else default(t)
    if q == 'Y': return 'YI' if t == 'templateIdentifier' else 'SINK'
    if q == 'YI': return 'X' if t == 'doubleArrow' else 'SINK'
    raise Exception(q)

def step2(q, t):
    if q == 'SINK': return 'SINK'
    if q == 'START': return 'O' if t == 'scillaVersion' else 'SINK'
    if t == 'of_': return 'OB' if q == 'PN' else 'SINK'
    d = 'P' if t == 'pipe' else 'O'
    if q == 'O': return d
    if q in ('P', 'PD'): return 'PN' if t in names + ['hexNumber'] else 'PM' if t == 'underscore' else 'SINK'
    if q == 'PN':
        return 'PD' if t == 'dot' else 'PM' if t in names + ['hexNumber', 'underscore', 'openParen'] else \
               d if t in ('pipe', 'doubleArrow', 'let_', 'type', 'contract') else 'SINK'
    if q == 'PM':
        return 'PM' if t in names + ['hexNumber', 'underscore', 'openParen', 'closeParen', 'dot'] else \
               'O' if t == 'doubleArrow' else 'SINK'
    if q == 'OB': return 'OF' if t in names + ['openParen', 'map', 'hexNumber'] else 'SINK'
    if q == 'OF': return 'SINK' if t == 'doubleArrow' else d if t in ('pipe', 'let_', 'type', 'contract') else 'OF'
    raise Exception(q)

def step3(q, t):
    if q == 'SINK': return 'SINK'
    if q == 'START': return 'O' if t == 'scillaVersion' else 'SINK'
    if t == 'emp': return 'EM' if q == 'V' else 'SINK'
    d = 'V' if t in ('equals', 'doubleArrow', 'in_', 'with_') else 'B' if t in ('openBrace', 'semicolon') else 'O'
    types = [w for w in names if w not in NI and w != 'templateIdentifier']
    if q == 'O': return d
    if q == 'B': return 'BN' if t in names else d
    if q == 'BN': return 'BD' if t == 'dot' else 'V' if t == 'colon' else d
    if q == 'BD': return 'BN' if t in names else d
    args = [w for w in types if w != 'byStr']
    if q == 'V': return 'SINK' if t == 'openParen' else 'VH' if t == 'hexNumber' else 'VN' if t in names else d
    if q == 'VH': return 'VD1' if t == 'dot' else 'SINK' if t in names + ['openParen', 'hexNumber', 'map'] else d
    if q == 'VN':
        return 'SINK' if t in ('openParen', 'hexNumber', 'map', 'with_', 'byStr') else 'VD1' if t == 'dot' else \
               'VA' if t in NI else 'VC' if t in args else d
    if q == 'VD1': return 'VN' if t in names else 'SINK'
    if q == 'VA': return 'VA' if t in NI else 'VC' if t in args else d
    if q == 'VC': return 'VD' if t == 'dot' else 'SINK'
    if q == 'VD': return 'VA' if t in NI else 'SINK'
    if q == 'EM': return 'E2' if t == 'byStr' else 'EC' if t in types else 'EH' if t == 'hexNumber' else 'O' if t == 'openParen' else 'SINK'
    if q == 'EH': return 'ED' if t == 'dot' else 'SINK'
    if q == 'ED': return 'E2' if t in types else 'SINK'
    if q == 'EC' and t == 'dot': return 'ED'
    if q == 'EC' and t == 'with_': return 'O'
    if q in ('E2', 'EC'): return 'E3' if t in types else 'O' if t in ('openParen', 'hexNumber', 'map', 'byStr') else 'SINK'
    if q == 'E3': return 'E4' if t == 'dot' else d
    if q == 'E4': return 'O' if t in types else 'SINK'
    raise Exception(q)

def step4(q, t):
    # B: before the contract, A: behind; O: behind `=`, `=>`, `in`; W: behind `with`; P: where a name may get a type;
    # L: behind `let`; N: elsewhere; I: a name
    if q == 'SINK': return 'SINK'
    if q == 'START': return 'BN' if t == 'scillaVersion' else 'SINK'
    o = t in ('equals', 'doubleArrow', 'in_')
    if q[0] == 'A':
        if t == 'let_' and q == 'AN': return 'SINK'
        return 'AO' if o or t == 'with_' else 'AN'
    if q == 'BL': return 'BK' if t == 'identifier' else 'SINK'
    if q == 'BK': return 'SINK' if t not in ('colon', 'equals') else 'BO' if t == 'equals' else 'BN'
    if q == 'BI' and t in ('colon', 'equals'): return 'SINK'
    if t == 'let_' and q == 'BP': return 'SINK'
    if t == 'contract': return 'BN' if q == 'BW' else 'AN'
    if o: return 'BO'
    if t == 'identifier' and q != 'BP': return 'BI'
    return {'with_': 'BW', 'openParen': 'BP', 'openBrace': 'BP', 'semicolon': 'BP', 'field': 'BP', 'dot': 'BP', 'let_': 'BL'}.get(t, 'BN')

def step5(q, t):
    # G: behind `,`; H: behind `(`, `{`, `;`, `let`; F: behind `field`; I, X, D: behind a name, another name, a dot there; the same with B elsewhere
    if q == 'SINK': return 'SINK'
    if q == 'START': return 'B' if t == 'scillaVersion' else 'SINK'
    if t == 'comma': d = 'G'
    elif t in ('openParen', 'openBrace', 'semicolon', 'let_'): d = 'H'
    elif t == 'field': d = 'F'
    else: d = 'B'
    if q == 'H':
        if t == 'field': return 'SINK'
        q = 'G'
    if q in ('G', 'B', 'F'):
        if q == 'F' and t not in names: return 'SINK'
        return q + 'I' if t in NI else q + 'X' if t in names else d
    if q in ('GI', 'GX', 'BI', 'BX', 'FI', 'FX'):
        if t == 'dot': return q[0] + 'D'
        if t == 'colon' and q == 'BI': return 'SINK'
        if q == 'FX' or (q == 'FI' and t != 'colon'): return 'SINK'
        if t in NI: return 'BI'
        if t in names: return 'BX'
        return d
    if q[1] == 'D':
        if t in NI: return q[0] + 'I'
        if q == 'FD' or t == 'field': return 'SINK'
        return q[0] + 'X' if t in names else d
    raise Exception(q)

def step6(q, t):
    if q == 'SINK': return 'SINK'
    if q == 'START': return 'O' if t == 'scillaVersion' else 'SINK'
    if t == 'match_': return 'SINK' if q[0] == 'M' else 'M'
    if q[0] == 'M':
        if q in ('M', 'MD'): return 'MI' if t in NI else 'MX' if t in names and q == 'M' else 'SINK'
        if q == 'MX': return 'MD' if t == 'dot' else 'SINK'
        return 'O' if t == 'with_' else 'SINK'
    if q == 'I' and t == 'with_': return 'SINK'
    return 'I' if t in NI else 'O'

def step7(q, t):
    # a map access: behind `<-`, `&`, `exists` or `delete` it is not followed by `:=`, elsewhere it is
    if q == 'SINK': return 'SINK'
    if q == 'START': return 'O' if t == 'scillaVersion' else 'SINK'
    if q in ('Q', 'W') and t == 'delete': return 'SINK'
    if q == 'Q': return 'E' if t == 'closeBracket' else 'Q'
    if q == 'W': return 'V' if t == 'closeBracket' else 'W'
    if q == 'V': return 'W' if t == 'openBracket' else 'O' if t == 'colonEquals' else 'SINK'
    if q == 'D': return 'DI' if t in NI else 'DC' if t in names else 'SINK'
    if q == 'DC': return 'DD' if t == 'dot' else 'SINK'
    if q == 'DD': return 'DI' if t in NI else 'SINK'
    if q == 'DI': return 'Q' if t == 'openBracket' else 'SINK'
    if q == 'E' and t == 'openBracket': return 'Q'
    if q == 'E' and t == 'colonEquals': return 'SINK'
    if q == 'R' and t in names + ['dot']: return 'R'
    if q == 'R' and t == 'openBracket': return 'Q'
    if t == 'delete': return 'D' if q in ('O', 'E') else 'SINK'
    if t in ('leftArrow', 'ampersand', 'exists_'): return 'R'
    return 'W' if t == 'openBracket' else 'O'

def step8(q, t):
    if q == 'SINK': return 'SINK'
    if q == 'START': return 'O' if t == 'scillaVersion' else 'SINK'
    if q == 'K': return 'O' if t == 'openParen' else 'SINK'
    if q == 'Y': return 'O' if t == 'templateIdentifier' else 'SINK'
    if q == 'V' and t in ('openParen', 'templateIdentifier'): return 'SINK'
    if q != 'V' and t in ('fun_', 'tfun'): return 'SINK'
    return {'fun_': 'K', 'tfun': 'Y', 'equals': 'V', 'doubleArrow': 'V', 'in_': 'V', 'with_': 'V'}.get(t, 'O')

def step9(q, t):
    # B: before the contract, BW: behind `with`, BC: behind `,` or `with contract`; A: behind the contract, AL: behind `=`, `in`, `with` and the
    # `=>` of a clause or a function, AK: between `|`, `fun` or `tfun` and its `=>`
    if q == 'SINK': return 'SINK'
    if q == 'START': return 'B' if t == 'scillaVersion' else 'SINK'
    if q[0] == 'B':
        if t == 'contract': return 'BC' if q == 'BW' else 'A'
        if t == 'field': return 'B' if q == 'BC' else 'SINK'
        if t == 'let_' and q == 'BC': return 'SINK'
        return {'with_': 'BW', 'comma': 'BC'}.get(t, 'B')
    if q == 'AK':
        if t == 'let_': return 'SINK'
        return 'AL' if t == 'doubleArrow' else 'AK'
    if t == 'field' and q == 'AL': return 'SINK'
    if t == 'let_' and q == 'A': return 'SINK'
    if t in ('fun_', 'tfun', 'pipe'): return 'AK'
    return 'AL' if t in ('equals', 'in_', 'with_') else 'A'

argument = ['openParen', 'map', 'hexNumber']

def step10(q, t):
    # H: imports, HX: behind `import` or `as`; L, BLN: library and its name; C, CN, CP, CI: a contract, its name, `(`, a name; B: before the
    # contract, A: behind it; with these W: behind `with`, X: and `contract` or `library`, R: behind `&`, M, MN: behind `Map`, Y, YN: behind
    # `type`, P, PN: behind `of` or an argument of `Map`, PP, PI: behind `(` there
    if q == 'SINK': return 'SINK'
    if q == 'START': return 'H0' if t == 'scillaVersion' else 'SINK'
    if q == 'H0': return 'H' if t == 'number' else 'SINK'
    if q[0] == 'H':
        if q == 'HX': return 'HN' if t in names else 'SINK'
        if t in ('import_', 'as_'): return 'HX'
        if t == 'library': return 'L'
        if t == 'contract': return 'C'
        if t in names: return 'HN'
        return 'SINK'
    if q == 'L': return 'BLN' if t in names else 'SINK'
    if q == 'C': return 'CN' if t in names else 'SINK'
    if q == 'CN': return 'CP' if t == 'openParen' else 'SINK'
    if q == 'CP': return 'CI' if t == 'identifier' else 'A' if t in ('closeParen', 'comma') else 'SINK'
    if q == 'CI': return 'A' if t == 'colon' else 'SINK'
    Z = q[0]; k = q[1:]
    if k == 'X': return Z if t in ('field', 'end_') else 'SINK'
    if t == 'import_': return 'SINK'
    if t == 'library': return Z + 'X' if k == 'W' else 'SINK'
    if k == 'W' and t in ('map', 'type', 'of_'): return 'SINK'
    def default():
        if t == 'contract': return 'C' if Z == 'B' and k != 'W' else 'SINK' if k != 'W' else Z + 'X'
        if t == 'with_': return Z + 'W'
        if t == 'as_': return 'A' if q == 'AR' else 'SINK'
        if t == 'map': return 'SINK' if q == 'AR' else Z + 'M'
        if Z == 'A':
            if t in ('type', 'of_'): return 'SINK'
            return 'AR' if t == 'ampersand' or (k == 'R' and t in names + ['dot']) else 'A'
        return 'BY' if t == 'type' else 'BP' if t == 'of_' else 'B'
    if k == 'LN': return 'SINK' if t in names or t in argument else default()
    if k == 'Y': return 'BYN' if t in names else 'SINK'
    if k == 'YN': return 'SINK' if t not in ('equals', 'let_', 'type', 'contract') else default()
    if k == 'M': return Z + 'MN' if t in names else Z + 'P' if t == 'hexNumber' else default() if t in argument else 'SINK'
    if k == 'MN':
        return Z + 'M' if t == 'dot' else Z + 'P' if t in names else 'SINK' if t in ('let_', 'type', 'contract', 'equals') else Z + 'PP' if t == 'openParen' else default()
    if k == 'P': return Z + 'PN' if t in names else Z + 'PP' if t == 'openParen' else default()
    if k == 'PN': return Z + 'PP' if t == 'openParen' else default()
    if k == 'PP': return 'SINK' if t in ('closeParen', 'comma') else Z + 'PI' if t == 'identifier' else default()
    if k == 'PI': return 'SINK' if t == 'colon' else default()
    return default()

def step11(q, t):
    # F..: behind `forall`; M..: `Map`; S.., TH: `send`, `event`, `throw`; L..: `let`; U..: `builtin`, `in`; W..: `with`; T..: `transition`,
    # `procedure`; E..: `Emp`; K..: `fun`
    if q == 'SINK': return 'SINK'
    if q == 'START': return 'O' if t == 'scillaVersion' else 'SINK'
    d = {'forall_': 'F', 'send': 'S', 'event': 'S', 'throw': 'TH', 'let_': 'L', 'builtin': 'U', 'emp': 'E', 'fun_': 'K', 'map': 'M',
         'in_': 'U', 'with_': 'W', 'transition': 'T', 'procedure': 'T'}.get(t, 'O')
    if q == 'F': return 'FN' if t in NI else 'FT' if t == 'templateIdentifier' else 'FC' if t in names else 'SINK'
    if q == 'FN': return 'O' if t in names else 'SINK'
    if q == 'FC': return 'FD' if t == 'dot' else 'SINK'
    if q == 'FD': return 'FN' if t in NI else 'SINK'
    if q == 'FT': return 'O' if t == 'dot' else 'SINK'
    types = [w for w in names if w not in NI and w != 'templateIdentifier']
    if q == 'M': return 'MN' if t in types else d if t in argument else 'SINK'
    if q == 'MN': return 'MD' if t == 'dot' else d
    if q == 'MD': return 'MN' if t in types else 'SINK'
    if q == 'TH' and t not in names: return d
    if q in ('S', 'TH'): return 'SN' if t in NI else 'SC' if t in names and t != 'templateIdentifier' else 'SINK'
    if q == 'SC': return 'SD' if t == 'dot' else 'SINK'
    if q == 'SD': return 'SN' if t in NI else 'SINK'
    if q == 'SN': return 'SINK' if t in names else d
    if q == 'L': return 'LN' if t in names else 'SINK'
    if q == 'LN': return d if t in ('colon', 'equals') else 'SINK'
    if q == 'U': return 'UN' if t in names else d
    if q == 'UN': return 'SINK' if t in ('colon', 'equals') else d
    if q == 'W': return 'WN' if t in names else d
    if q == 'WN': return 'SINK' if t == 'openParen' else 'W' if t == 'dot' else d
    if q == 'T': return 'TN' if t in names else 'SINK'
    if q == 'TN': return 'O' if t == 'openParen' else 'SINK'
    if q == 'E': return 'EP' if t == 'openParen' else d
    if q == 'EP': return 'EI' if t == 'identifier' else d
    if q == 'EI': return 'SINK' if t == 'colon' else d
    if q == 'K': return 'KP' if t == 'openParen' else 'SINK'
    if q == 'KP': return 'KI' if t == 'identifier' else 'SINK'
    if q == 'KI': return d if t == 'colon' else 'SINK'
    return d

TN=['byStrWithSize','eventType','customIdentifier']
def step12(q, t):
    # colons.  P, PI: behind `(` or `,`, and a name there; L, LI: behind `let`, and the name; G, GC, GD, BI: behind `{` or a message's `;`, a name;
    # B: in a message; F, FI, FC, FD, with B in a message: behind `field`, and its name; A, AN: behind `&`, and its name; Y: behind a colon
    if q == 'SINK': return 'SINK'
    if q == 'START': return 'O' if t == 'scillaVersion' else 'SINK'
    if t == 'colon': return {'PI':'Y','LI':'LY','BI':'BY','FI':'Y','BFI':'BY'}.get(q,'SINK')
    if q in ('PI','BI','FI','BFI','LI'):
        if q=='PI' and t=='closeParen': return 'O'
        if q=='LI' and t=='equals': return 'O'
        return 'SINK'
    if q in ('F','BF'): return q+'I' if t in NI else q+'C' if t in TN else 'SINK'
    if q in ('FC','BFC'): return q[:-1]+'D' if t=='dot' else 'SINK'
    if q in ('FD','BFD'): return q[:-1]+'I' if t in NI else 'SINK'
    if q == 'L': return 'LI' if t=='identifier' else 'SINK'
    if q in ('Y','LY') and t in ('closeParen','equals'): return 'SINK'
    if q == 'BY' and t in ('semicolon','closeBrace','equals'): return 'SINK'
    if q in ('B','BY'):
        return {'semicolon':'G','closeBrace':'O','field':'BF'}.get(t,'B')
    if q == 'G' and t in NI: return 'BI'
    if q == 'G' and t in TN: return 'GC'
    if q == 'GC' and t=='dot': return 'GD'
    if q == 'GD' and t in NI: return 'BI'
    if q == 'P' and t=='identifier': return 'PI'
    if q == 'A' and t in TN: return 'AN'
    if q == 'AN' and t=='openParen': return 'O'
    return {'openParen':'P','comma':'P','field':'F','let_':'L','openBrace':'G','ampersand':'A'}.get(t,'O')

def step13(q, t):
    # R..: behind `<-`; A..: behind `<- &`
    if q == 'SINK': return 'SINK'
    if q == 'START': return 'O' if t == 'scillaVersion' else 'SINK'
    if t=='ampersand': return 'A' if q=='R' else 'SINK'
    d='R' if t=='leftArrow' else 'O'
    if q=='R': return 'RI' if t in NI else 'RC' if t in TN else 'RE' if t=='exists_' else 'SINK'
    if q=='RI': return 'SINK' if t in ('dot','as_') else d
    if q=='RC': return 'RD' if t=='dot' else 'SINK'
    if q=='RD': return 'RI' if t in NI else 'SINK'
    if q=='RE': return 'RF' if t=='identifier' else 'SINK'
    if q=='RF': return 'SINK' if t=='dot' else d
    if q=='A': return 'AI' if t in NI else 'AC' if t in TN else 'AE' if t=='exists_' else 'SINK'
    if q=='AI': return 'O' if t in ('dot','as_') else 'SINK'
    if q=='AC': return 'AD' if t=='dot' else d
    if q=='AD': return 'AV' if t in NI else 'SINK'
    if q=='AV': return 'O' if t=='as_' else 'SINK'
    if q=='AE': return 'AF' if t=='identifier' else 'SINK'
    if q=='AF': return 'O' if t=='dot' else 'SINK'
    return d

def step14(q, t):
    # X: where an expression begins; V: a variable there, and more; T, TV: behind `@`, and the variable; TA, TB: a type
    if q == 'SINK': return 'SINK'
    if q == 'START': return 'O' if t == 'scillaVersion' else 'SINK'
    if t=='at_': return 'T' if q=='X' else 'SINK'
    d='X' if t in ('equals','doubleArrow','in_','with_') else 'O'
    if q=='X': return 'V' if t in NI else 'XN' if t in TN else d
    if q=='XN': return 'XD' if t=='dot' else d
    if q=='XD': return 'V' if t in NI else d
    if q=='V': return 'V' if t in NI else 'VC' if t in TN else 'SINK' if t in ('openParen','hexNumber','map','templateIdentifier','byStr') else d
    if q=='VC': return 'VD' if t=='dot' else 'SINK'
    if q=='VD': return 'V' if t in NI else 'SINK'
    if q=='T': return 'TV' if t in NI else 'TC' if t in TN else 'SINK'
    if q=='TC': return 'TD' if t=='dot' else 'SINK'
    if q=='TD': return 'TV' if t in NI else 'SINK'
    if q=='TV': return 'TA' if t in TN else 'O' if t in ('openParen','hexNumber','map','templateIdentifier','byStr') else 'SINK'
    if q=='TA': return 'TB' if t=='dot' else d
    if q=='TB': return 'SINK' if t in NI else 'O' if t in names else 'SINK'
    return d

# the counter: `=>` expected.  1, 3 behind `)`; 2, 3: since the last `type` there was no `match`
def arrows(s, t, z):
    td=s&2
    if t=='match_': return (0,0)
    if t=='type': return (2,0)
    if t in ('fun_','tfun'): return (td,1)
    if t=='pipe': return (td,0 if td else 1)
    if t=='doubleArrow': return None if z else (td,-1)
    if t=='with_': return (td, 1 if s&1 else 0)
    return (td|1,0) if t=='closeParen' else (td,0)
# counter machines: state, terminal, is the counter zero -> (state, change) or None
def letIn(s, t, z):
    if t == 'let_': return (0, 1) if s == 1 else (0, 0) if z else None
    if t == 'in_': return None if z else (1, -1)
    return (1, 0) if t in ('equals', 'doubleArrow', 'with_') else (0, 0)

# 0 library; 1 the same behind `with`; 2 the same behind `)`; 3 behind contract; 4 behind its name; 5 among the parameters;
# 6 the same behind `)`; 7 behind the parameters; 8 the rest; 9 the same behind `)`
def header(s, t, z):
    if s <= 2:
        if t == 'contract': return (0, 0) if s == 1 else (3, 0)
        if t == 'with_': return None if s == 2 else (1, 0)
        return (2, 0) if t == 'closeParen' else (0, 0)
    if s == 3: return (4, 0)
    if s == 4: return (5, 0) if t == 'openParen' else None
    if s <= 6:
        if t == 'with_' and s == 6: return None
        if t == 'openParen': return (5, 1)
        if t == 'closeParen': return (7, 0) if z else (6, -1)
        return (5, 0)
    if s == 7: return (8, 0) if t in ('with_', 'field', 'transition', 'procedure') else None
    if t == 'with_' and s == 9: return None
    return (9, 0) if t == 'closeParen' else (8, 0)

# the counter: blocks `with ... end`; 1 behind `)`, 2 behind `,`
def commas(s, t, z):
    if s == 2 and (z if t == 'field' else not z and t in NI): return None
    if t == 'with_': return (0, 0) if s == 1 else (0, 1)
    if t == 'end_': return (0, 0) if z else (0, -1)
    return (2, 0) if t == 'comma' else (1, 0) if t == 'closeParen' else (0, 0)

# found by merging the states of a larger automaton: a row for every state, a column for every terminal, `.`: no program
TABLE15 = '''
..1230..00..04.2.....0..0004.25..02..00.....00602.0000.0.02
......................7.....8......99a.b.bc........a...ada.
....e0..286.04e2...6..046.0.6.5002...68....4.....466.006662
..1.3f..6.....................b......g.............g...dbg.
..1..f6.4.6..h....96..74..0.6.b00.299i04.bc.....24ii.05jji.
..1..0..kl.5e4e2..........04..5..02..m0....4.0..2.8m.0.ddm8
..1.30..e86j04e2..........04.25..02..m0....4.0..2.8m80.ddm8
........2.............0..............m.....4.....48m.nnnnm8
..1.30..e8.5e4e2......7...04825..0299m00.b94.0..2.8m.0.oom8
..1.............p.............5......m..b..........m...bbm.
..173f6........q.99...........b......m.............m...rrm.
..1..f6.......................b...2.............2......4...
..1..f........................b......m.............m...bbm.
..17b0.4eb.5.4............04.05..02..m0....4.0.02.6m.0.ddm6
........28..0.........0..............88....4......88.0.0.88
.....................4...............s............ss.0.4.s.
..1..0..tu65e4e2.....0....04..5..02..v0....4.0..2.vv.0.wdv8
.....f................7.....8.b....99a.4.bc........a...a.a.
..1.30..xi6..4............04.25..02..m0....4.0..2.8m80.ddm.
..1..06.k.6..4.q.99.......04..5..02..m0......0..2..m...ddm.
........2d............0..............6.....4......66.0...68
..1..0..k8.5e4e2......7...04825..0299m00.b94.0..2.8m.0.o.m8
..1.30..e8.5e4e2..........04.25..02..m0....4.0..2.8m80.rrm8
..6.3......5.........................b.............b...b.b.
..1e..6........q.99..........45......m.............m...rrm.
.....................................3..6..........3...y03.
..........6........6...4..0.6..00....r...........4rr.3brrr.
..1.3f....6...................b......m.............m8..ddm.
....3...0....h.......0...............0............00.0.0.0.
........2............00..............z.....4......zz.0.0.z8
..1..0..tu.5e4e2.....07...04825..0299A00.b94.0..2.vA.0.B.A8
..1.30..tu.5e4e2.....0....04.25..02..v0....4.0..2.vv.0.0.v8
..1..0..00...4.......0....04..5..02..00......0..2.00.0.Cd0.
....3...x....................2.......D.....4......DD.0...D.
....9..........................................0...........
....3...tv....e......0.......2.......v.....4......vv.0.0.v8
..1.30..tu.5e4e2.....0....04.25..02..v0....4.0..2.vv.0.Erv8
..1...6.00...4.q.99..0........5......0............00.0.Er0.
..1..0..0F...4.......0....04..5..02..00......0..2.00.0.Cd0.
....3...G8...................2.......D.....H......DD.0...D.
..1..f..00...4.......0........b......0............00.0.Cd0.
..1..f..00...4.......0........b......0............00.0.0.0.
........x............................I.....4......II.0...I.
........4............................x............xx.0...x.
....3...GD...................2.......D.....H......DD.0...D.
'''.split()
ALPHABET = '0123456789abcdefghijklmnopqrstuvwxyzABCDEFGHIJKLMNOPQRSTUVWXYZ'

def step15(q, t):
    if q == 'SINK': return 'SINK'
    c = TABLE15[0 if q == 'START' else ALPHABET.index(q[1])][T.index(t)]
    return 'SINK' if c == '.' else 'Q' + c

def definitions(s, t, z):
    if t == 'type': return (2, 0) if z else None
    return arrows(s, t, z)

W3 = ['eventType', 'byStrWithSize', 'customIdentifier']

# inside a type: after a word `w`, a dot `d`, `field` `f`, a name `i`, `,` `k`, `forall` `q`
def types(b, q, t):
    w, v = t in W3, t in ('identifier', 'specialIdentifier')
    s = q[len(b):]
    if s == 'q': return b + 'r' if t == 'templateIdentifier' else 'SINK'
    if s == 'r': return b if t == 'dot' else 'SINK'
    if s == 'd': return b if w else 'SINK'
    if s == 'h': return b + 'd' if t == 'dot' else 'SINK'
    if s == 'f': return b + 'i' if v else b + 'g' if w else 'SINK'
    if s == 'g': return b + 'e' if t == 'dot' else 'SINK'
    if s == 'e': return b + 'i' if t == 'identifier' else 'SINK'
    if s == 'i': return b if t == 'colon' else 'SINK'
    if s == 'k': return b + 'f' if t == 'field' else b + 'i' if t == 'identifier' else 'SINK'
    if w: return b + 'w'
    if s == 'w' and t == 'dot': return b + 'd'
    if s == 'w' and t == 'with_': return b + 'c'
    if t == 'hexNumber': return b + 'h'
    if t == 'forall_': return b + 'q'
    if t == 'field': return b + 'f' if s == 'c' else 'SINK'
    if t == 'identifier': return b + 'i' if s == 'p' else 'SINK'
    if t == 'comma': return b + 'k' if s != 'c' else 'SINK'
    if t == 'contract' and s == 'c': return b + 'c'
    if t == 'openParen': return b + 'p'
    if t == 'specialIdentifier': return b if s == 'c' else 'SINK'
    return b if t in ('byStr', 'map', 'templateIdentifier', 'closeParen', 'arrow', 'end_', 'library') else 'SINK'

# where expressions begin (E), their heads (C), `@`, `Emp`, the types of `let`, and all places of `:`
def step16(q, t):
    w, i, sp = t in W3, t == 'identifier', t == 'specialIdentifier'
    v = i or sp
    if q == 'SINK': return 'SINK'
    if q == 'START': return 'O' if t == 'scillaVersion' else 'SINK'
    if t == 'scillaVersion': return 'SINK'
    def d(t):
        if t in ('at_', 'emp', 'colon', 'openBrace'): return 'SINK'
        return {'equals': 'E', 'in_': 'E', 'doubleArrow': 'EA', 'with_': 'EW', 'let_': 'L', 'semicolon': 'S', 'field': 'F',
                'openParen': 'Q', 'comma': 'K', 'pipe': 'R', 'underscore': 'U', 'dot': 'D', 'leftArrow': 'A', 'colonEquals': 'A',
                'contract': 'CN'}.get(t, 'O')
    no = lambda *l: 'SINK' if t in l else d(t)
    if q == 'O': return d(t)
    if q in ('E', 'EA', 'EW'):
        if t == 'at_': return 'AT'
        if t == 'emp': return 'P'
        if w: return 'C'
        if t == 'byStr': return 'C2'
        if t == 'hexNumber': return 'CH'
        if t == 'builtin': return 'BN'
        if t == 'openBrace': return 'M'
        if v: return 'EI' if q == 'EA' and i else 'ES' if q == 'EW' and sp else 'C1'
        if t == 'forall_': return 'EF' if q == 'EA' else 'SINK'
        if t == 'field': return 'F' if q == 'EA' else 'SINK'
        if t == 'contract': return 'CA0' if q == 'EW' else 'SINK'
        return no('openParen', 'map', 'templateIdentifier', 'semicolon', 'comma', 'dot', 'equals', 'underscore', 'closeParen', 'number')
    if q == 'ES': return 'O' if t == 'end_' else step16('C1', t)
    if q == 'EI':
        if t in ('equals', 'leftArrow', 'openBracket', 'colonEquals'): return d(t)
        return step16('C1', t)
    if q == 'EF': return 'SINK' if t == 'templateIdentifier' else d(t)
    if q == 'CA0': return 'F' if t == 'field' else 'O' if t == 'end_' else 'SINK'
    if q == 'CN': return 'O' if w else 'SINK'
    if q in ('C', 'C1', 'C2'):
        if q == 'C' and t == 'dot': return 'CD'
        if q == 'C' and t == 'number': return 'O'
        if q != 'C1' and t == 'openBrace': return 'CT'
        if v: return 'C1'
        if w: return 'CX'
        return no('openParen', 'byStr', 'hexNumber', 'map', 'templateIdentifier', 'openBrace', 'arrow', 'equals', 'comma', 'closeParen',
                  'dot', 'number', 'with_', 'underscore')
    if q == 'CH': return 'CHD' if t == 'dot' else no('identifier', 'specialIdentifier', 'with_')
    if q == 'CHD': return 'C2' if w else 'SINK'
    if q == 'CX': return 'CXD' if t == 'dot' else 'SINK'
    if q == 'CXD': return 'C1' if i else 'SINK'
    if q == 'CD': return 'C2' if w else 'C1' if i else 'SINK'
    if q.startswith('CT'): return 'BN2' if t == 'closeBrace' and q in ('CT', 'CTw') else types('CT', q, t)
    if q == 'BN': return 'BN1' if i else 'SINK'
    if q == 'BN1' and t == 'openBrace': return 'CT'
    if q == 'BN2' and t != 'openParen': return step16('C1', t)
    if q in ('BN1', 'BN2'): return 'BNP' if t == 'openParen' else 'C1' if v else 'CX' if w else 'SINK'
    if q == 'BNP': return 'O' if t == 'closeParen' else 'SINK'
    if q == 'P': return 'P1' if w else 'P2' if t == 'byStr' else 'PH' if t == 'hexNumber' else 'Q' if t == 'openParen' else 'SINK'
    if q == 'PH': return 'PD' if t == 'dot' else 'SINK'
    if q == 'P1': return 'PD' if t == 'dot' else 'EW' if t == 'with_' else step16('P2', t)
    if q == 'PD': return 'P2' if w else 'SINK'
    if q == 'P2': return d(t) if w or t in ('byStr', 'hexNumber', 'map', 'openParen') else 'SINK'
    if q == 'AT': return 'AT1' if v else 'ATW' if w else 'SINK'
    if q == 'ATW': return 'ATD' if t == 'dot' else 'SINK'
    if q == 'ATD': return 'AT1' if i else 'SINK'
    if q == 'AT1': return ('AW' if w else 'O' if t in ('byStr', 'templateIdentifier', 'map') else 'AH' if t == 'hexNumber' else
                           'AP' if t == 'openParen' else 'SINK')
    if q == 'AP': return no('closeParen')
    if q == 'AH': return 'AWD' if t == 'dot' else 'SINK'
    if q == 'AW': return 'AWD' if t == 'dot' else d(t)
    if q == 'AWD': return 'O' if w else 'SINK'
    if q == 'L': return 'LI' if i else 'SINK'
    if q == 'LI': return 'T' if t == 'colon' else 'E' if t == 'equals' else 'SINK'
    if q == 'T': return ('T1' if w else 'T2' if t in ('byStr', 'templateIdentifier') else 'TH' if t == 'hexNumber' else
                         d(t) if t in ('map', 'openParen', 'forall_') else 'SINK')
    if q == 'TH': return 'TD' if t == 'dot' else 'SINK'
    if q == 'T1': return 'TD' if t == 'dot' else 'EW' if t == 'with_' else step16('T2', t)
    if q == 'TD': return 'T2' if w else 'SINK'
    if q == 'T2': return ('T1' if w else 'T2' if t in ('byStr', 'templateIdentifier') else 'TH' if t == 'hexNumber' else
                          d(t) if t in ('map', 'openParen', 'arrow', 'equals') else 'SINK')
    if q == 'F': return 'FI' if v else 'FW' if w else 'SINK'
    if q == 'FW': return 'FD' if t == 'dot' else 'SINK'
    if q == 'FD': return 'FI' if i else 'SINK'
    if q == 'FI': return 'O' if t == 'colon' else 'SINK'
    if q == 'Q': return 'PI' if i else d(t)
    if q == 'PI': return 'PT' if t == 'colon' else 'BA' if v else 'BW' if w else 'O' if t == 'closeParen' else 'SINK'
    if q == 'PT': return 'PW' if w else no('identifier', 'specialIdentifier', 'closeParen', 'dot')
    if q == 'PW': return 'PWD' if t == 'dot' else d(t)
    if q == 'PWD': return 'O' if w else 'SINK'
    if q == 'BA': return 'BA' if v else 'BW' if w else 'O' if t == 'closeParen' else 'SINK'
    if q == 'BW': return 'BD' if t == 'dot' else 'SINK'
    if q == 'BD': return 'BA' if i else 'SINK'
    if q == 'K': return 'FI' if i else 'F' if t == 'field' else 'SINK'
    if q == 'R': return 'RI' if i else no('field', 'specialIdentifier')
    if q == 'RI': return 'EA' if t == 'doubleArrow' else 'SINK'
    if q == 'U': return 'UI' if i else no('field')
    if q == 'UI': return no('equals')
    if q == 'D': return 'UI' if v else no('field')
    if q == 'A': return 'UI' if v else no('field', 'let_')
    if q == 'S': return d(t)
    if q == 'M': return 'MI' if v else 'MW' if w else 'SINK'
    if q == 'MW': return 'MD' if t == 'dot' else 'SINK'
    if q == 'MD': return 'MI' if i else 'SINK'
    if q == 'MI': return 'MC' if t == 'colon' else 'SINK'
    if q == 'MC': return 'MV' if v or t in ('hexNumber', 'stringLiteral') else 'MX0' if t == 'emp' else 'MCW' if w else 'SINK'
    if q == 'MCW': return 'MV' if t == 'number' else 'MCD' if t == 'dot' else 'SINK'
    if q == 'MCD': return 'MV' if i else 'SINK'
    if q == 'MV': return 'M' if t == 'semicolon' else 'O' if t == 'closeBrace' else 'SINK'
    if q == 'MX0': return 'SINK' if t in ('number', 'dot', 'semicolon', 'closeBrace') else types('MX', 'MX', t)
    if q.startswith('MX'):
        if q in ('MX', 'MXw'):
            if t == 'semicolon': return 'M'
            if t == 'closeBrace': return 'O'
        return types('MX', q, t)
    raise Exception(q)

# library, head and fields, components; in braces; behind `=`, `in`, `=>`, `with`; behind `,` or the `contract` of an address
def step17(q, t):
    if q == 'SINK': return 'SINK'
    if q == 'START': return 'LIB' if t == 'scillaVersion' else 'SINK'
    if t == 'scillaVersion': return 'SINK'
    ex = t in ('equals', 'in_', 'doubleArrow')
    r, s = (q[:3], q[3:])  # region, the rest: '' 'E' 'W' 'C' 'B' 'BC' 'BW' 'L'
    if s == 'L': return r if t == 'identifier' else 'SINK'
    if s.startswith('B'):
        if t == 'closeBrace': return r
        if t == 'let_': return 'SINK'
        if s == 'BC': return r + 'B' if t in ('field', 'identifier', 'end_') else 'SINK'
        if t == 'comma': return r + 'BC'
        if t == 'with_': return r + 'BW'
        if t == 'contract': return r + 'BC' if s == 'BW' else 'SINK'
        if t == 'field': return 'SINK'
        if t == 'semicolon' and s == 'BW': return 'SINK'
        return r + 'B'
    if s == 'C':
        if t == 'field' or t == 'end_': return r
        return r if r != 'LIB' and t == 'identifier' else 'SINK'
    if t == 'comma': return 'SINK' if s in ('E', 'W') else r + 'C'
    if t == 'semicolon': return 'COM' if r == 'COM' and s == '' else 'SINK'
    if t == 'with_': return r + 'W'
    if ex: return r + 'E'
    if t == 'openBrace': return r + 'B'
    if t == 'contract': return r + 'C' if s == 'W' else 'CON' if r == 'LIB' and s == '' else 'SINK'
    if t in ('transition', 'procedure'): return 'COM' if r != 'LIB' else 'SINK'
    if t == 'let_': return r + 'L' if r == 'LIB' or s in ('E', 'W') else 'SINK'
    if t == 'field': return 'CON' if r == 'CON' else 'SINK'
    return r

# the depth of the blocks inside a component or outside; 1: behind `,` and the `contract` of an address, 2: behind `)`, 3: behind `with`
def levels(s, t, z):
    if s == 1: return None if z or t not in ('field', 'identifier', 'end_') else (0, -1 if t == 'end_' else 0)
    if t == 'field': return (0, 0) if z else None
    if t == 'comma': return (1, 0) if s != 3 else None
    if t == 'contract': return (1, 0) if s == 3 else (0, 0)
    if t in ('openParen', 'openBrace', 'openBracket'): return (0, 1)
    if t == 'with_': return (3 if s != 2 else 0, 0 if s == 2 else 1)
    if t == 'end_' and z: return (0, 0)
    if t in ('closeParen', 'closeBrace', 'closeBracket', 'end_'): return None if z else (2 if t == 'closeParen' else 0, -1)
    return (0, 0)

def counter(move, n):
    tab = {}
    need = {(18, True, 0)}
    def run(z, s, rhs):
        cs = {(s, 0)}
        for X in rhs:
            new = set()
            for (q, k) in cs:
                if X[0] == '.n':
                    key = (X[1], z and k == 0, q)
                    need.add(key)
                    new |= {(p, k) for p in tab.get(key, set())}
                else:
                    t = T[X[1]]
                    r = move(q, t, z and k == 0)
                    assert k > 0 or z or (r and r[1] >= 0), (q, t)
                    assert r, (q, t, X)
                    new.add((r[0], k + r[1]))
            cs = new
        assert all(k == 0 for _, k in cs)
        return {q for q, _ in cs}
    ch = True
    while ch:
        ch = False
        for key in list(need):
            x, z, s = key
            for l, r in rules:
                if l != x: continue
                c = run(z, s, r)
                if not c <= tab.get(key, set()): tab[key] = tab.get(key, set()) | c; ch = True
        if any(k not in tab for k in need): ch = True
    out = []
    for x in range(119):
        row = []
        for s in range(n):
            for z in (False, True):
                v = tab.get((x, z, s)) if (x, z, s) in need else None
                row.append('none' if v is None else 'some %s' % sorted(v))
        out.append(row if any(v != 'none' for v in row) else [])
    return out, sorted(tab[(18, True, 0)])

def build(step, keys, drops=(), but=()):
    S = ['SINK', 'START']; k = 0
    while k < len(S):
        for t in T:
            n = step(S[k], t)
            if n not in S: S.append(n)
        k += 1
    D = {}
    def st(X, q): return {step(q, T[X[1]])} if X[0] == '.t' else D.get((X[1], q), set())
    ch = True
    while ch:
        ch = False
        for l, r in rules:
            for q in S:
                cur = {q}
                for X in r: cur = set().union(*[st(X, p) for p in cur]) if cur else cur
                if not cur <= D.get((l, q), set()): D[(l, q)] = D.get((l, q), set()) | cur; ch = True
    reach = {(18, 'START')}; todo = [(18, 'START')]
    while todo:
        x, q = todo.pop()
        for l, r in rules:
            if l != x: continue
            cur = {q}
            for X in r:
                nxt = set()
                for p in cur:
                    if X[0] == '.n' and (X[1], p) not in reach: reach.add((X[1], p)); todo.append((X[1], p))
                    nxt |= st(X, p)
                cur = nxt
    fin = D[(18, 'START')]
    assert 'SINK' not in fin, fin
    good = {(a, b) for a in fin for b in fin}
    ch = True
    while ch:
        ch = False
        for a in S:
            for b in S:
                if (a, b) in good or 'SINK' in (a, b): continue
                if any((step(a, t), step(b, t)) in good for t in T): good.add((a, b)); ch = True
    for k, xs in keys:
        for x in xs:
            for q in S: assert (step(q, k), step(q, x)) not in good, (k, x, q)
    for k in drops:
        for q in S: assert q in but or (step(q, k), q) not in good or q == 'SINK', (k, q)
    I = {q: n for n, q in enumerate(S)}
    mask = lambda M: sum(1 << I[q] for q in M)
    full = (1 << len(S)) - 1
    table = [[I[step(q, t)] for t in T] for q in S]
    sets = [[mask(D.get((x, q), set())) if (x, q) in reach else full for q in S] if any((x, q) in reach for q in S) else []
            for x in range(119)]
    doomed = [mask({b for b in S if (a, b) not in good}) for a in S]
    return S, table, sets, doomed, mask(fin)

def rows(name, doc, ty, data):
    import textwrap
    out = [f'/-- {doc} -/', f'def {name} : {ty} :=']
    body = repr(data).replace('], [', '],\n   [')
    lines = []
    for l in body.split('\n'): lines += textwrap.wrap(l, 118, initial_indent='  ' if not lines else '   ', subsequent_indent='     ')
    return '\n'.join(out + lines) + '\n'

if __name__ == '__main__':
    no_special = [w for w in words if w != 'specialIdentifier']
    A = build(step1, [(k, words) for k in ('let_', 'match_', 'fun_', 'tfun', 'transition', 'procedure', 'field', 'exists_',
                                           'delete', 'scillaVersion')] + [('contract', no_special)], ['scillaVersion'])
    all_of_them = (('first', A), ('second', build(step2, [('of_', words)], ['of_'])), ('third', build(step3, [('emp', words)], ['emp'])),
                   ('fourth', build(step4, [], ['let_'], ['AO'])), ('fifth', build(step5, [], ['field'], ['G'])),
                   ('sixth', build(step6, [], ['match_'])), ('seventh', build(step7, [], ['delete'])),
                   ('eighth', build(step8, [], ['fun_', 'tfun'])), ('ninth', build(step9, [])), ('tenth', build(step10, [])),
                   ('eleventh', build(step11, [])), ('twelfth', build(step12, [], ['colon'])),
                   ('thirteenth', build(step13, [], ['ampersand'])), ('fourteenth', build(step14, [], ['at_'])))
    HEAD = '''/-
Finite automata%s, written by tools/keywords.py.  Nothing about them is assumed: %s checks what is used.
State 0 is where no program gets, state 1 is the start.
-/
namespace Verif.LR
'''
    def automata(o, l):
        for nm, (S, table, sets, doomed, fin) in l:
            print(nm, len(S), {q: n for n, q in enumerate(S)})
            o.append(f'/-! The states: {", ".join(S)} -/\n')
            o.append(rows(nm + 'PassSteps', 'for each state, the next state for each terminal', 'List (List Nat)', table))
            o.append(rows(nm + 'PassSets', 'for each nonterminal and each state, the set of states (one bit each) behind it', 'List (List Nat)', sets))
            o.append(rows(nm + 'PassDoomed', 'for each state, the states with which it has no continuation in common', 'List Nat', doomed))
            o.append(f'/-- the states where programs end -/\ndef {nm}PassFinal : Nat := {fin}\n')
    o = [HEAD % (' and counter machines', 'Proofs/Keywords')]
    automata(o, all_of_them[:8])
    for nm, mv, n in (('letIn', letIn, 2), ('header', header, 10), ('commas', commas, 3)):
        tab, fin = counter(mv, n)
        print(nm, 'ends in', fin)
        o.append(rows(nm + 'Table', 'for each nonterminal, each state and whether the counter is known to be zero: the states behind it',
                      'List (List (Option (List Nat)))', tab).replace("'", ''))
    o.append('end Verif.LR')
    open(R + '/Proofs/KeywordData.lean', 'w').write('\n'.join(o) + '\n')
    o = [HEAD % ('', 'Proofs/Exchange')]
    automata(o, all_of_them[8:11])
    o.append('end Verif.LR')
    open(R + '/Proofs/ExchangeData.lean', 'w').write('\n'.join(o) + '\n')
    o = [HEAD % (' and a counter machine', 'Proofs/Punctuation')]
    automata(o, all_of_them[11:])
    tab, fin = counter(arrows, 4)
    print('arrows', 'ends in', fin)
    o.append(rows('arrowsTable', 'for each nonterminal, each state and whether the counter is known to be zero: the states behind it',
                  'List (List (Option (List Nat)))', tab).replace("'", ''))
    o.append('end Verif.LR')
    open(R + '/Proofs/PunctuationData.lean', 'w').write('\n'.join(o) + '\n')
    o = [HEAD % (' and a counter machine', 'Proofs/Mistaken')]
    automata(o, [('fifteenth', build(step15, []))])
    tab, fin = counter(definitions, 4)
    print('definitions', 'ends in', fin)
    o.append(rows('definitionsTable', 'for each nonterminal, each state and whether the counter is known to be zero: the states behind it',
                  'List (List (Option (List Nat)))', tab).replace("'", ''))
    o.append('end Verif.LR')
    open(R + '/Proofs/MistakenData.lean', 'w').write('\n'.join(o) + '\n')
    o = [HEAD % (' and a counter machine', 'Proofs/Separators')]
    automata(o, [('sixteenth', build(step16, [])), ('seventeenth', build(step17, []))])
    tab, fin = counter(levels, 4)
    print('levels', 'ends in', fin)
    o.append(rows('levelsTable', 'for each nonterminal, each state and whether the counter is known to be zero: the states behind it',
                  'List (List (Option (List Nat)))', tab).replace("'", ''))
    o.append('end Verif.LR')
    open(R + '/Proofs/SeparatorsData.lean', 'w').write('\n'.join(o) + '\n')
