{"A0": ["S", "x(x(a)(a))(a)", 3], "A1": ["S", "x(a)(a)", 2], "A2": ["S", "x(a)(a)", 2], "A3": ["S", "a", 1], "A4": ["S", "a", 1], "A5": ["S", "a", 1], "U0": ["S", "a", 1], "U2": ["S", "a", 1], "U4": ["S", "x(a)(x(a)(x(a)(x(a)(a))))", 5], "U6": ["B", "x(x(x(a)(a))(a))(x(a)(a))", 5], "U8": ["B", "x(a)(a)", 2], "U10": ["B", "x(a)(x(a)(x(a)(x(a)(a))))", 5], "T": ["T", "a", 1]}