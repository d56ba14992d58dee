[{"root": [92800, 1, 407200, 2000000, 1, 2], "tree": "y(x(y(a)(a))(y(a)(a)))(a)", "n": 5}, {"root": [150000, 1, 650000, 2000000, 1, 2], "tree": "y(x(y(a)(a))(y(a)(a)))(x(a)(a))", "n": 6}, {"root": [200000, 1, 1000000, 2000000, 1, 2], "tree": "y(x(a)(a))(x(a)(a))", "n": 4}, {"root": [250000, 1, 1450000, 2000000, 1, 2], "tree": "y(a)(x(a)(a))", "n": 3}, {"root": [250000, 1, 1950000, 2000000, 1, 2], "tree": "y(a)(x(a)(a))", "n": 3}, {"root": [314220, 1, 2514220, 2000000, 1, 2], "tree": "y(a)(x(y(a)(a))(y(a)(x(a)(a))))", "n": 6}, {"root": [185800, 1, 3014200, 2000000, 1, 2], "tree": "y(a)(x(y(a)(a))(y(a)(x(a)(a))))", "n": 6}, {"root": [200000, 1, 3400000, 2000000, 1, 2], "tree": "y(a)(x(y(a)(x(a)(y(a)(a))))(y(a)(x(y(a)(a))(y(a)(a)))))", "n": 10}, {"root": [216300, 1, 3816300, 2000000, 1, 2], "tree": "y(a)(x(y(a)(x(y(a)(a))(y(a)(a))))(y(a)(x(y(a)(x(a)(a)))(y(a)(x(a)(y(a)(a)))))))", "n": 14}, {"root": [283700, 1, 4316300, 2000000, 1, 2], "tree": "y(a)(x(y(a)(x(y(a)(x(y(a)(x(a)(a)))(a)))(y(a)(x(a)(a)))))(y(a)(x(y(a)(x(a)(a)))(y(a)(x(a)(a))))))", "n": 17}, {"root": [400000, 1, 5000000, 2000000, 1, 2], "tree": "y(a)(x(y(a)(x(y(a)(x(a)(a)))(y(a)(x(a)(a)))))(y(a)(x(y(a)(x(a)(a)))(y(a)(x(a)(a))))))", "n": 15}, {"root": [462278, 1, 5862278, 2000000, 1, 2], "tree": "y(x(a)(a))(x(y(x(a)(a))(x(y(a)(x(a)(a)))(y(a)(x(a)(a)))))(y(x(a)(a))(x(y(a)(x(a)(a)))(y(a)(x(a)(a))))))", "n": 18}]